import Verif.Model.WrapText
import Verif.Props.TextFile
import Verif.Props.Interface

/-!
# C100: the statements of `wrapper.cpp` are the interface of the model

As C95 to C99, for the nine functions of /repo/src/wrapper.cpp:30-74, which a Fortran program calls with the
addresses of its variables in the order of the parameters.
-/

namespace Verif.Props
open Text Spec

variable {α : Type} [Scalar α]

/-- A block of integers whose entries `ks` exist and hold `f`. -/
def IntsAt (c : Cell α) (ks : List Nat) (f : Nat → Int) : Prop :=
  ∃ v, c = .ints v ∧ ∀ q ∈ ks, q < v.n ∧ v.val q = some (f q)

/-- A block of numbers whose entries `ks` exist and hold `f`. -/
def DblsAt (c : Cell α) (ks : List Nat) (f : Nat → α) : Prop :=
  ∃ v, c = .dbls v ∧ ∀ q ∈ ks, q < v.n ∧ v.val q = some (f q)

theorem takeVec_ok {β : Type} {d : β} {ks : List Nat} {v : Vec β} {f : Nat → β}
    (h : ∀ q ∈ ks, q < v.n ∧ v.val q = some (f q)) :
    takeVec d ks (some v) = .ok (fun q => (v.val q).getD d) := by
  have h1 : (ks.all fun q => decide (q < v.n)) = true := List.all_eq_true.2 fun q hq => decide_eq_true (h q hq).1
  have h2 : (ks.all fun q => (v.val q).isSome) = true := List.all_eq_true.2 fun q hq => by rw [(h q hq).2]; rfl
  simp only [takeVec, h1, h2, if_true]
  rfl

/-- The constructor reads three sizes, five parameters of the cell, two types and four parameters of each
material. -/
structure SameRead (a b : Args α) : Prop where
  dim : a.dim = b.dim
  size : ∀ q, q < 3 → a.size q = b.size q
  micro : a.microType = b.microType
  mp : ∀ q, q < 5 → a.microParams q = b.microParams q
  ty : ∀ q, q < 2 → a.matTypes q = b.matTypes q
  pa : ∀ i q, i < 2 → q < 4 → a.params (i * 10 + q) = b.params (i * 10 + q)

theorem SameRead.mkCfg {a b : Args α} (h : SameRead a b) : mkCfg a = mkCfg b := by
  funext j et
  unfold Verif.mkCfg
  simp only [h.dim, h.size 0 (by omega), h.size 1 (by omega), h.size 2 (by omega), h.micro, h.mp 0 (by omega),
    h.mp 1 (by omega), h.mp 2 (by omega), h.mp 3 (by omega)]
  congr 1
  funext i
  by_cases hi : i < 2
  · simp only [if_pos hi, mkMaterial, h.ty i hi, h.pa i 0 hi (by omega), h.pa i 1 hi (by omega),
      h.pa i 2 hi (by omega), h.pa i 3 hi (by omega)]
  · simp only [if_neg hi]

theorem SameRead.constructF {a b : Args α} (h : SameRead a b) (env : Env α) (j : Junk α) (f : Files α) :
    constructF env a j f = constructF env b j f := by
  unfold Verif.constructF construct
  rw [h.mkCfg, h.dim, h.micro]

/-- **C100**, `micropp_construct_`: with blocks that hold the arguments in the order of the parameters, the
object and the files are those of the model, the previous object is abandoned, and the blocks are unchanged;
where the constructor faults, the text has the same fault. -/
theorem C100_construct (L : LitLaws α) (env : Env α) (j : Junk α) (w : World α) {a : Args α}
    {cd cs ct cm cy cp : Cell α} (hd : IntsAt cd [0] fun _ => (a.dim : Int))
    (hs : IntsAt cs [0, 1, 2] fun q => (a.size q : Int)) (ht : IntsAt ct [0] fun _ => a.microType)
    (hm : DblsAt cm [0, 1, 2, 3, 4] a.microParams) (hy : IntsAt cy [0, 1] a.matTypes)
    (hp : DblsAt cp [0, 1, 2, 3, 10, 11, 12, 13] a.params)
    (h0 : 2 ≤ a.size 0) (h1 : 2 ≤ a.size 1) (h2 : a.dim ≠ 2 → 2 ≤ a.size 2) :
    wText env j w .micropp_construct_ [cd, cs, ct, cm, cy, cp]
      = (fun w' => (w', [cd, cs, ct, cm, cy, cp])) <$> wConstruct env a j w := by
  obtain ⟨vd, rfl, hd⟩ := hd
  obtain ⟨vs, rfl, hs⟩ := hs
  obtain ⟨vt, rfl, ht⟩ := ht
  obtain ⟨vm, rfl, hm⟩ := hm
  obtain ⟨vy, rfl, hy⟩ := hy
  obtain ⟨vp, rfl, hp⟩ := hp
  have ed := hd 0 (by simp)
  have et := ht 0 (by simp)
  let a' : Args α := { dim := a.dim, size := fun q => ((vs.val q).getD 0).toNat, microType := a.microType
                       microParams := fun q => (vm.val q).getD 0, matTypes := fun q => (vy.val q).getD 0
                       params := fun q => (vp.val q).getD 0 }
  have same : SameRead a' a := by
    refine ⟨rfl, fun q hq => ?_, rfl, fun q hq => ?_, fun q hq => ?_, fun i q hi hq => ?_⟩
    · have := (hs q (by interval_cases q <;> simp)).2
      simp [a', this]
    · have := (hm q (by interval_cases q <;> simp)).2
      simp [a', this]
    · have := (hy q (by interval_cases q <;> simp)).2
      simp [a', this]
    · have := (hp (i * 10 + q) (by interval_cases i <;> interval_cases q <;> simp)).2
      simp [a', this]
  have hargs : argsOf { (Loc.none : Loc α) with
      i := upd (upd (upd (upd (Loc.none : Loc α).i .a_dim (some (a.dim : Int))) .size (vs.val 0))
        .a_micro_type (some a.microType)) .mat_types (vy.val 0)
      iv := upd (upd (Loc.none : Loc α).iv .size (some vs)) .mat_types (some vy)
      v := upd (upd (Loc.none : Loc α).v .a_micro_params (some vm)) .params (some vp) } = .ok a' := by
    unfold argsOf
    simp only [show ∀ (g : V → Option (Vec Int)) , upd (upd g .size (some vs)) .mat_types (some vy) .size = some vs from
        fun _ => rfl, show ∀ (g : V → Option (Vec Int)), upd (upd g .size (some vs)) .mat_types (some vy) .mat_types
        = some vy from fun _ => rfl, show ∀ (g : V → Option (Vec α)), upd (upd g .a_micro_params (some vm)) .params
        (some vp) .a_micro_params = some vm from fun _ => rfl, show ∀ (g : V → Option (Vec α)), upd (upd g
        .a_micro_params (some vm)) .params (some vp) .params = some vp from fun _ => rfl,
      takeVec_ok hs, takeVec_ok hm, takeVec_ok hy, takeVec_ok hp]
    rfl
  have e : wText env j w .micropp_construct_ [.ints vd, .ints vs, .ints vt, .dbls vm, .ints vy, .dbls vp]
      = (ctorText env a' j w.files >>= fun r => pure (⟨some r.obj, r.files, w.micro.toList ++ w.abandoned⟩,
          [.ints vd, .ints vs, .ints vt, .dbls vm, .ints vy, .dbls vp])) := by
    have hl : passArgs [(.dim, .ints vd), (.size, .ints vs), (.micro_type, .ints vt), (.micro_params, .dbls vm),
        (.mat_types, .ints vy), (.params, .dbls vp)] [.deref .dim, .ptr .size, .deref .micro_type,
        .ptr .micro_params, .ptr .mat_types, .ptr .params] kparams (Loc.none : Loc α) = .ok { (Loc.none : Loc α) with
      i := upd (upd (upd (upd (Loc.none : Loc α).i .a_dim (some (a.dim : Int))) .size (vs.val 0))
        .a_micro_type (some a.microType)) .mat_types (vy.val 0)
      iv := upd (upd (Loc.none : Loc α).iv .size (some vs)) .mat_types (some vy)
      v := upd (upd (Loc.none : Loc α).v .a_micro_params (some vm)) .params (some vp) } := by
      simp [passArgs, passArg, kparams, wLook, ed.1, ed.2, et.1, et.2, need, bind, Except.bind, pure, Except.pure]
    unfold wText
    simp only [wparams, wFrame, wbody, M_bind_ok', M_pure, hl, hargs]
  rw [e, (C98_constructor L env (a := a') (by rw [same.size 0 (by omega)]; exact h0)
    (by rw [same.size 1 (by omega)]; exact h1) (fun h => by rw [same.size 2 (by omega)]; exact h2 h) j w.files).1,
    same.constructF, wConstruct]
  cases constructF env a j w.files with
  | error e => rfl
  | ok r => cases w.micro <;> rfl



/-- **C100**, `micropp_homogenize_`. -/
theorem C100_homogenize (L : LitLaws α) (env : Env α) (j : Junk α) (w : World α) {o : Obj α} (hw : w.micro = some o)
    (ho : o.Ok) : wText env j w .micropp_homogenize_ [] = (fun r => (r.world, [])) <$> wHomogenize env w := by
  have h := C97_homogenize L env ho Loc.none
  have e : wText env j w .micropp_homogenize_ [] = ((fun t => t.obj) <$> tRun env .homogenize ⟨o, Loc.none⟩) >>=
      fun o' => pure ({ w with micro := some o' }, []) := by
    unfold wText
    simp only [wparams, wFrame, wbody, M_bind_ok', M_pure, hw, passArgs, mparams, methRun]
    cases tRun env .homogenize ⟨o, Loc.none⟩ <;> rfl
  rw [e, h, wHomogenize, wCall, hw]
  simp only [step]
  cases homogenize env o <;> rfl

/-- **C100**, `micropp_update_internal_variables_`. -/
theorem C100_update (env : Env α) (j : Junk α) (w : World α) {o : Obj α} (hw : w.micro = some o)
    (ho : o.Ok) : wText env j w .micropp_update_internal_variables_ [] = (fun r => (r.world, [])) <$> wUpdate env w := by
  have h := C97_update_vars env ho Loc.none
  have e : wText env j w .micropp_update_internal_variables_ [] = ((fun t => t.obj) <$> tRun env .update_vars ⟨o, Loc.none⟩) >>=
      fun o' => pure ({ w with micro := some o' }, []) := by
    unfold wText
    simp only [wparams, wFrame, wbody, M_bind_ok', M_pure, hw, passArgs, mparams, methRun]
    cases tRun env .update_vars ⟨o, Loc.none⟩ <;> rfl
  rw [e, h, wUpdate, wCall, hw]
  simp only [step]
  cases updateVars o <;> rfl

/-- **C100**, `micropp_output_`: the time step, then the number of the Gauss point. -/
theorem C100_output (L : LitLaws α) (env : Env α) (j : Junk α) (w : World α) {o : Obj α} (hw : w.micro = some o)
    (ho : o.Ok) {ct ci : Cell α} {k id : Int} (ht : IntsAt ct [0] fun _ => k) (hi : IntsAt ci [0] fun _ => id) :
    wText env j w .micropp_output_ [ct, ci] = (fun r => (r.world, [ct, ci])) <$> wOutput env w k id := by
  obtain ⟨vt, rfl, ht⟩ := ht
  obtain ⟨vi, rfl, hi⟩ := hi
  have et := ht 0 (by simp)
  have ei := hi 0 (by simp)
  have hl : passArgs [(.tstep, .ints vt), (.gp_id, .ints vi)] [.deref .tstep, .deref .gp_id] (mparams .output)
      (Loc.none : Loc α) = .ok { (Loc.none : Loc α) with
        i := upd (upd (Loc.none : Loc α).i .time_step (some k)) .gp_id (some id) } := by
    simp [passArgs, passArg, mparams, wLook, et.1, et.2, ei.1, ei.2, need, bind, Except.bind, pure, Except.pure]
  have h := (C99_output L env (s := ⟨o, w.files⟩) ho (l := { (Loc.none : Loc α) with
        i := upd (upd (Loc.none : Loc α).i .time_step (some k)) .gp_id (some id) }) (id := id) (k := k) rfl rfl 2 le_rfl).1
  have e : wText env j w .micropp_output_ [.ints vt, .ints vi] = output env ⟨o, w.files⟩ k id >>=
      fun s => pure ({ w with micro := some s.obj, files := s.files }, [.ints vt, .ints vi]) := by
    rw [← h]
    unfold wText
    simp only [wparams, wFrame, wbody, M_bind_ok', M_pure, hw, hl, methRun]
    cases fRun env o.cfg o.gauss 2 .output ⟨⟨o.work, { (Loc.none : Loc α) with
        i := upd (upd (Loc.none : Loc α).i .time_step (some k)) .gp_id (some id) }⟩, w.files, none⟩ <;> rfl
  rw [e, wOutput, wCall, hw]
  simp only [step]
  cases output env ⟨o, w.files⟩ k id <;> rfl

/-- **C100**, `micropp_write_convergence_file_`. -/
theorem C100_write (L : LitLaws α) (env : Env α) (j : Junk α) (w : World α) {o : Obj α} (hw : w.micro = some o)
    (ho : o.Ok) : wText env j w .micropp_write_convergence_file_ [] = (fun r => (r.world, [])) <$> wWriteInfo env w := by
  obtain ⟨t, h1, h2, h3, h4⟩ := C99_write_info_files L env (s := ⟨o, w.files⟩) ho (l := { (Loc.none : Loc α) with
        i := upd (Loc.none : Loc α).i .output_files_header (some (if o.header = true then 1 else 0)) }) rfl 2 (by omega)
  have e : wText env j w .micropp_write_convergence_file_ []
      = .ok ({ w with micro := some { o with header := true }, files := t.files }, []) := by
    unfold wText
    simp only [wparams, wFrame, wbody, M_bind_ok', M_pure, hw, passArgs, mparams, methRun]
    rw [h1]
    simp only [M_bind_ok', M_pure, h3, h2, need]
    rfl
  rw [e, wWriteInfo, wCall, hw]
  simp only [step, h4]
  rfl

theorem filled_of {v : Vec α} {N : Nat} {f : Nat → α} (h : ∀ q ∈ List.range N, q < v.n ∧ v.val q = some (f q))
    (hN : 0 < N) : Filled (some v) N f :=
  ⟨v, rfl, by have := (h (N - 1) (List.mem_range.2 (by omega))).1; omega, fun q hq => (h q (List.mem_range.2 hq)).2⟩

theorem nvoi_gt (c : Cfg α) : 0 < c.nvoi := by unfold Cfg.nvoi; split <;> omega

/-- **C100**, `micropp_set_macro_strain_`: the number of the Gauss point, then the strain, of which `nvoi`
entries are read. -/
theorem C100_set_macro_strain (env : Env α) (j : Junk α) (w : World α) {o : Obj α} (hw : w.micro = some o)
    {ci ce : Cell α} {id : Int} {eps : Nat → α} (hi : IntsAt ci [0] fun _ => id)
    (he : DblsAt ce (List.range o.cfg.nvoi) eps) :
    ∃ w', wText env j w .micropp_set_macro_strain_ [ci, ce] = .ok (w', [ci, ce]) ∧
      wSetStrain env w id eps = .ok ⟨w', .unit⟩ := by
  obtain ⟨vi, rfl, hi⟩ := hi
  obtain ⟨ve, rfl, he⟩ := he
  have ei := hi 0 (by simp)
  have hl : passArgs [(.gp_id, .ints vi), (.macro_strain, .dbls ve)] [.deref .gp_id, .ptr .macro_strain]
      (mparams .set_macro_strain) (Loc.none : Loc α) = .ok { (Loc.none : Loc α) with
        i := upd (Loc.none : Loc α).i .gp_id (some id)
        v := upd (Loc.none : Loc α).v .macro_strain (some ve) } := by
    simp [passArgs, passArg, mparams, wLook, ei.1, ei.2, need, bind, Except.bind, pure, Except.pure]
  obtain ⟨t, h1, h2⟩ := C97_set_macro_strain env o (l := { (Loc.none : Loc α) with
        i := upd (Loc.none : Loc α).i .gp_id (some id)
        v := upd (Loc.none : Loc α).v .macro_strain (some ve) }) (id := id) (eps := eps) rfl
    (filled_of he (nvoi_gt _))
  refine ⟨{ w with micro := some (setMacroStrain env o id eps) }, ?_, ?_⟩
  · unfold wText
    simp only [wparams, wFrame, wbody, M_bind_ok', M_pure, hw, hl, methRun, h1, h2]
    rfl
  · rw [wSetStrain, wCall, hw]
    rfl

/-- **C100**, `micropp_get_macro_stress_`: the number of the Gauss point, then the array for the stress, of
at least `nvoi` entries; afterwards it holds what the model returns for the contents `buf` it had. -/
theorem C100_get_macro_stress (env : Env α) (j : Junk α) (w : World α) {o : Obj α} (hw : w.micro = some o)
    {ci : Cell α} {id : Int} {v : Vec α} {buf : Nat → α} (hi : IntsAt ci [0] fun _ => id) (hn : o.cfg.nvoi ≤ v.n)
    (hb : ∀ q y, v.val q = some y → buf q = y) :
    ∃ a b, wText env j w .micropp_get_macro_stress_ [ci, .dbls v] = .ok (w, [ci, .dbls a]) ∧
      wGetStress env w id buf = .ok ⟨w, .buf b⟩ ∧
      ∀ q, ((v.val q).isSome = true ∨ ((∃ gp ∈ o.gauss, gp.id = id) ∧ q < o.cfg.nvoi)) → a.val q = some (b q) := by
  obtain ⟨vi, rfl, hi⟩ := hi
  have ei := hi 0 (by simp)
  have hl : passArgs [(.gp_id, .ints vi), (.macro_stress, .dbls v)] [.deref .gp_id, .ptr .macro_stress]
      (mparams .get_macro_stress) (Loc.none : Loc α) = .ok { (Loc.none : Loc α) with
        i := upd (Loc.none : Loc α).i .gp_id (some id)
        v := upd (Loc.none : Loc α).v .macro_stress (some v) } := by
    simp [passArgs, passArg, mparams, wLook, ei.1, ei.2, need, bind, Except.bind, pure, Except.pure]
  obtain ⟨t, a, h1, h2, h3, h4⟩ := C97_get_macro_stress env o (l := { (Loc.none : Loc α) with
        i := upd (Loc.none : Loc α).i .gp_id (some id)
        v := upd (Loc.none : Loc α).v .macro_stress (some v) }) (id := id) (v := v) (buf := buf) rfl rfl hn hb
  have e2 : (getMacroStress o id buf).1 = o := by unfold getMacroStress; split <;> rfl
  refine ⟨a, (getMacroStress o id buf).2, ?_, ?_, h4⟩
  · have ew : w = { w with micro := some o } := by cases w; cases hw; rfl
    unfold wText
    simp only [wparams, wFrame, wbody, M_bind_ok', M_pure, hw, hl, methRun, h1, h2]
    simp only [mparams, wBack, List.map, h3]
    rw [← ew]
    rfl
  · have ew : w = { w with micro := some o } := by cases w; cases hw; rfl
    rw [wGetStress, wCall, hw]
    simp only [step, e2, M_bind_ok', M_pure]
    rw [← ew]

/-- **C100**, `micropp_get_macro_ctan_`, in the same way with `nvoi * nvoi` entries. -/
theorem C100_get_macro_ctan (env : Env α) (j : Junk α) (w : World α) {o : Obj α} (hw : w.micro = some o)
    {ci : Cell α} {id : Int} {v : Vec α} {buf : Nat → α} (hi : IntsAt ci [0] fun _ => id)
    (hn : o.cfg.nvoi * o.cfg.nvoi ≤ v.n) (hb : ∀ q y, v.val q = some y → buf q = y) :
    ∃ a b, wText env j w .micropp_get_macro_ctan_ [ci, .dbls v] = .ok (w, [ci, .dbls a]) ∧
      wGetCtan env w id buf = .ok ⟨w, .buf b⟩ ∧
      ∀ q, ((v.val q).isSome = true ∨ ((∃ gp ∈ o.gauss, gp.id = id) ∧ q < o.cfg.nvoi * o.cfg.nvoi)) →
        a.val q = some (b q) := by
  obtain ⟨vi, rfl, hi⟩ := hi
  have ei := hi 0 (by simp)
  have hl : passArgs [(.gp_id, .ints vi), (.macro_ctan, .dbls v)] [.deref .gp_id, .ptr .macro_ctan]
      (mparams .get_macro_ctan) (Loc.none : Loc α) = .ok { (Loc.none : Loc α) with
        i := upd (Loc.none : Loc α).i .gp_id (some id)
        v := upd (Loc.none : Loc α).v .macro_ctan (some v) } := by
    simp [passArgs, passArg, mparams, wLook, ei.1, ei.2, need, bind, Except.bind, pure, Except.pure]
  obtain ⟨t, a, h1, h2, h3, h4⟩ := C97_get_macro_ctan env o (l := { (Loc.none : Loc α) with
        i := upd (Loc.none : Loc α).i .gp_id (some id)
        v := upd (Loc.none : Loc α).v .macro_ctan (some v) }) (id := id) (v := v) (buf := buf) rfl rfl hn hb
  have e2 : (getMacroCtan o id buf).1 = o := by unfold getMacroCtan; split <;> rfl
  refine ⟨a, (getMacroCtan o id buf).2, ?_, ?_, h4⟩
  · have ew : w = { w with micro := some o } := by cases w; cases hw; rfl
    unfold wText
    simp only [wparams, wFrame, wbody, M_bind_ok', M_pure, hw, hl, methRun, h1, h2]
    simp only [mparams, wBack, List.map, h3]
    rw [← ew]
    rfl
  · have ew : w = { w with micro := some o } := by cases w; cases hw; rfl
    rw [wGetCtan, wCall, hw]
    simp only [step, e2, M_bind_ok', M_pure]
    rw [← ew]

/-- **C100**, `micropp_get_non_linear_flag_`: the number of the Gauss point, then the variable for the flag. -/
theorem C100_get_nl (env : Env α) (j : Junk α) (w : World α) {o : Obj α} (hw : w.micro = some o)
    {ci : Cell α} {id : Int} {v : Vec Int} (hi : IntsAt ci [0] fun _ => id) :
    ∃ k, wText env j w .micropp_get_non_linear_flag_ [ci, .ints v]
        = .ok (w, [ci, .ints ⟨v.n, fun q => if q = 0 then some k else v.val q⟩]) ∧
      wGetNl env w id = .ok ⟨w, .flag k⟩ := by
  obtain ⟨vi, rfl, hi⟩ := hi
  have ei := hi 0 (by simp)
  have hl : passArgs [(.gp_id, .ints vi), (.non_linear, .ints v)] [.deref .gp_id, .ptr .non_linear]
      (mparams .get_nl_flag) (Loc.none : Loc α) = .ok { (Loc.none : Loc α) with
        i := upd (upd (Loc.none : Loc α).i .gp_id (some id)) .non_linear (v.val 0)
        iv := upd (Loc.none : Loc α).iv .non_linear (some v) } := by
    simp [passArgs, passArg, mparams, wLook, ei.1, ei.2, need, bind, Except.bind, pure, Except.pure]
  obtain ⟨t, h1, h2, h3⟩ := C97_get_nl_flag env o (l := { (Loc.none : Loc α) with
        i := upd (upd (Loc.none : Loc α).i .gp_id (some id)) .non_linear (v.val 0)
        iv := upd (Loc.none : Loc α).iv .non_linear (some v) }) (id := id) rfl
  have e2 : (getNlFlag o id).1 = o := by unfold getNlFlag; split <;> rfl
  refine ⟨(getNlFlag o id).2, ?_, ?_⟩
  · have ew : w = { w with micro := some o } := by cases w; cases hw; rfl
    unfold wText
    simp only [wparams, wFrame, wbody, M_bind_ok', M_pure, hw, hl, methRun, h1, h2]
    simp only [mparams, wBack, List.map, h3]
    rw [← ew]
    rfl
  · have ew : w = { w with micro := some o } := by cases w; cases hw; rfl
    rw [wGetNl, wCall, hw]
    simp only [step, e2, M_bind_ok', M_pure]
    rw [← ew]

/-- C100: before `micropp_construct_`, every other call with blocks of the right types dereferences NULL. -/
theorem C100_null (env : Env α) (j : Junk α) (w : World α) (hw : w.micro = none) {f : WFn}
    (hf : f ≠ .micropp_construct_) {cs : List (Cell α)} {fr : List (WV × Cell α)} (hc : wFrame (wparams f) cs = .ok fr) :
    wText env j w f cs = .error .null := by
  unfold wText
  rw [hc]
  cases f <;> first | exact absurd rfl hf | simp only [M_bind_ok', wbody, hw]

/-! ## Fortran programs -/

/-- A variable of type `integer` with a value. -/
def int1 (k : Int) : Cell α := .ints ⟨1, fun _ => some k⟩

/-- How a Fortran program makes a call: the function, and its variables in the order of the
documentation, arrays of 6, 6 and 36 numbers. -/
def fortran : Call α → WFn × List (Cell α)
  | .setStrain id eps => (.micropp_set_macro_strain_, [int1 id, .dbls ⟨6, fun q => some (eps q)⟩])
  | .homogenize => (.micropp_homogenize_, [])
  | .getStress id buf => (.micropp_get_macro_stress_, [int1 id, .dbls ⟨6, fun q => some (buf q)⟩])
  | .getCtan id buf => (.micropp_get_macro_ctan_, [int1 id, .dbls ⟨36, fun q => some (buf q)⟩])
  | .getNl id => (.micropp_get_non_linear_flag_, [int1 id, int1 0])
  | .updateVars => (.micropp_update_internal_variables_, [])
  | .output t id => (.micropp_output_, [int1 t, int1 id])
  | .writeInfo => (.micropp_write_convergence_file_, [])

/-- What the program finds in its variables after the call. -/
def found : Call α → List (Cell α) → Ret α
  | .getStress _ buf, [_, .dbls v] => .buf (arrOut buf (some v))
  | .getCtan _ buf, [_, .dbls v] => .buf (arrOut buf (some v))
  | .getNl _, [_, .ints v] => .flag ((v.val 0).getD 0)
  | _, _ => .unit

/-- The calls of a Fortran program after the construction, executed from the text of the wrappers and of
what they call, with what the program finds. -/
def fortranRun (env : Env α) (j : Junk α) : List (Call α) → World α → M (World α × List (Ret α))
  | [], w => pure (w, [])
  | k :: l, w => do
    let r ← wText env j w (fortran k).1 (fortran k).2
    let q ← fortranRun env j l r.1
    pure (q.1, found k r.2 :: q.2)

theorem int1_at (k : Int) : IntsAt (int1 k : Cell α) [0] fun _ => k :=
  ⟨_, rfl, fun q hq => by simp at hq; subst hq; exact ⟨Nat.one_pos, rfl⟩⟩

theorem fortran_step (L : LitLaws α) (env : Env α) (j : Junk α) (w : World α) {o : Obj α} (hw : w.micro = some o)
    (ho : o.Ok) (k : Call α) :
    (wText env j w (fortran k).1 (fortran k).2 >>= fun r => pure (r.1, found k r.2))
      = (fun r => (r.world, r.ret)) <$> wrapper env w k := by
  have hn := nvoi_le o.cfg
  cases k with
  | setStrain id eps =>
    obtain ⟨w', h1, h2⟩ := C100_set_macro_strain env j w hw (ci := int1 id)
      (ce := .dbls ⟨6, fun q => some (eps q)⟩) (eps := eps) (int1_at id)
      ⟨_, rfl, fun q hq => ⟨by have := List.mem_range.1 hq; show q < 6; omega, rfl⟩⟩
    simp only [fortran, wrapper, h1, h2]
    rfl
  | homogenize =>
    simp only [fortran, wrapper, C100_homogenize L env j w hw ho]
    have : ∀ r, wHomogenize env w = .ok r → r.ret = .unit := by
      intro r h
      simp only [wHomogenize, wCall, hw, step] at h
      cases hh : homogenize env o with
      | error e => rw [hh] at h; cases h
      | ok o' => rw [hh] at h; cases h; rfl
    cases h : wHomogenize env w with
    | error e => rfl
    | ok r =>
      show Except.ok (r.world, Ret.unit) = Except.ok (r.world, r.ret)
      rw [this r h]
  | getStress id buf =>
    obtain ⟨a, b, h1, h2, h3⟩ := C100_get_macro_stress env j w hw (ci := int1 id)
      (v := ⟨6, fun q => some (buf q)⟩) (buf := buf) (int1_at id) hn (fun q y e => by cases e; rfl)
    have : arrOut buf (some a) = b := by
      funext q
      simp only [arrOut, h3 q (.inl rfl)]
      rfl
    simp only [fortran, wrapper, h1, h2, M_bind_ok', found, this]
    rfl
  | getCtan id buf =>
    obtain ⟨a, b, h1, h2, h3⟩ := C100_get_macro_ctan env j w hw (ci := int1 id)
      (v := ⟨36, fun q => some (buf q)⟩) (buf := buf) (int1_at id) (Nat.mul_le_mul hn hn) (fun q y e => by cases e; rfl)
    have : arrOut buf (some a) = b := by
      funext q
      simp only [arrOut, h3 q (.inl rfl)]
      rfl
    simp only [fortran, wrapper, h1, h2, M_bind_ok', found, this]
    rfl
  | getNl id =>
    obtain ⟨k, h1, h2⟩ := C100_get_nl env j w hw (ci := int1 id) (v := ⟨1, fun _ => some 0⟩) (int1_at id)
    simp only [fortran, wrapper, h2]
    rw [show ([int1 id, int1 0] : List (Cell α)) = [int1 id, .ints ⟨1, fun _ => some 0⟩] from rfl, h1]
    rfl
  | updateVars =>
    simp only [fortran, wrapper, C100_update env j w hw ho]
    have : ∀ r, wUpdate env w = .ok r → r.ret = .unit := by
      intro r h
      simp only [wUpdate, wCall, hw, step] at h
      cases hh : updateVars o with
      | error e => rw [hh] at h; cases h
      | ok o' => rw [hh] at h; cases h; rfl
    cases h : wUpdate env w with
    | error e => rfl
    | ok r =>
      show Except.ok (r.world, Ret.unit) = Except.ok (r.world, r.ret)
      rw [this r h]
  | output t id =>
    simp only [fortran, wrapper, C100_output L env j w hw ho (int1_at t) (int1_at id)]
    have : ∀ r, wOutput env w t id = .ok r → r.ret = .unit := by
      intro r h
      simp only [wOutput, wCall, hw, step] at h
      cases hh : output env ⟨o, w.files⟩ t id with
      | error e => rw [hh] at h; cases h
      | ok o' => rw [hh] at h; cases h; rfl
    cases h : wOutput env w t id with
    | error e => rfl
    | ok r =>
      show Except.ok (r.world, Ret.unit) = Except.ok (r.world, r.ret)
      rw [this r h]
  | writeInfo =>
    simp only [fortran, wrapper, C100_write L env j w hw ho]
    have : ∀ r, wWriteInfo env w = .ok r → r.ret = .unit := by
      intro r h
      simp only [wWriteInfo, wCall, hw, step] at h
      cases hh : writeInfoFiles ⟨o, w.files⟩ with
      | error e => rw [hh] at h; cases h
      | ok o' => rw [hh] at h; cases h; rfl
    cases h : wWriteInfo env w with
    | error e => rfl
    | ok r =>
      show Except.ok (r.world, Ret.unit) = Except.ok (r.world, r.ret)
      rw [this r h]

/-- **C100** for programs: a Fortran program that calls `micropp_construct_` and then any other functions in
any order, executed from the text of `wrapper.cpp` and of everything below it, ends with the object and files
of the model, finds in its variables what the methods of the class return in the model, or has the same
fault. -/
theorem C100_program (L : LitLaws α) (env : Env α) (j j' : Junk α) (w : World α) {a : Args α}
    {cd cs ct cm cy cp : Cell α} (hd : IntsAt cd [0] fun _ => (a.dim : Int))
    (hs : IntsAt cs [0, 1, 2] fun q => (a.size q : Int)) (ht : IntsAt ct [0] fun _ => a.microType)
    (hm : DblsAt cm [0, 1, 2, 3, 4] a.microParams) (hy : IntsAt cy [0, 1] a.matTypes)
    (hp : DblsAt cp [0, 1, 2, 3, 10, 11, 12, 13] a.params)
    (h0 : 2 ≤ a.size 0) (h1 : 2 ≤ a.size 1) (h2 : a.dim ≠ 2 → 2 ≤ a.size 2) (calls : List (Call α)) :
    (wText env j w .micropp_construct_ [cd, cs, ct, cm, cy, cp] >>= fun r => fortranRun env j' calls r.1)
      = (constructF env a j w.files >>= modelCalls env calls).map fun q =>
          (⟨some q.1.obj, q.1.files, w.micro.toList ++ w.abandoned⟩, q.2) := by
  have key : ∀ (calls : List (Call α)) (s : ObjFiles α) (ab : List (Obj α)), s.obj.Ok →
      fortranRun env j' calls ⟨some s.obj, s.files, ab⟩
        = (modelCalls env calls s).map fun q => (⟨some q.1.obj, q.1.files, ab⟩, q.2) := by
    intro calls
    induction calls with
    | nil => intro s ab _; rfl
    | cons k l ih =>
      intro s ab ho
      have hk := fortran_step L env j' ⟨some s.obj, s.files, ab⟩ rfl ho k
      have hw : wrapper env ⟨some s.obj, s.files, ab⟩ k = (step env s k).map fun r =>
          ⟨⟨some r.state.obj, r.state.files, ab⟩, r.ret⟩ := by
        have : wrapper env ⟨some s.obj, s.files, ab⟩ k = wCall env ⟨some s.obj, s.files, ab⟩ k := by cases k <;> rfl
        rw [this]
        show (step env s k >>= fun r => pure (⟨⟨some r.state.obj, r.state.files, ab⟩, r.ret⟩ : WStepped α)) = _
        cases step env s k <;> rfl
      rw [hw] at hk
      unfold fortranRun modelCalls
      cases hr : step env s k with
      | error e =>
        rw [hr] at hk
        cases ht : wText env j' ⟨some s.obj, s.files, ab⟩ (fortran k).1 (fortran k).2 with
        | ok z => rw [ht] at hk; cases hk
        | error e' => rw [ht] at hk; cases hk; rfl
      | ok r =>
        rw [hr] at hk
        cases ht : wText env j' ⟨some s.obj, s.files, ab⟩ (fortran k).1 (fortran k).2 with
        | error e' => rw [ht] at hk; cases hk
        | ok z =>
          rw [ht] at hk
          have hz : (z.1, found k z.2) = ((⟨some r.state.obj, r.state.files, ab⟩ : World α), r.ret) := M_pure_inj hk
          simp only [Prod.mk.injEq] at hz
          simp only [M_bind_ok', hz.1, hz.2]
          rw [ih r.state ab ((step_sane ho k).post hr)]
          cases modelCalls env l r.state <;> rfl
  rw [C100_construct L env j w hd hs ht hm hy hp h0 h1 h2]
  unfold wConstruct constructF
  cases ho : construct env a j with
  | error e => rfl
  | ok o =>
    have ha : a.Ok := by
      unfold construct at ho
      split at ho
      · cases ho
      · rename_i hd
        split at ho
        · cases ho
        · rename_i hm
          rw [not_not] at hd hm
          exact ⟨hd, hm, h0, h1, fun h => h2 (by omega)⟩
    have := key calls ⟨o, ctorFiles o.cfg w.files⟩ (w.micro.toList ++ w.abandoned) (construct_built ha ho).2
    refine Eq.trans ?_ this
    cases hm : w.micro <;> simp only [hm] <;> rfl

/-! ## Examples -/

/-- The variables of a Fortran program with the arguments of `exArgsP`; the array of the material parameters
has values only where they are read. -/
noncomputable def exCells : List (Cell ℝ) :=
  [int1 exArgsP.dim, .ints ⟨3, fun q => some (exArgsP.size q)⟩, int1 exArgsP.microType,
    .dbls ⟨5, fun q => some (exArgsP.microParams q)⟩, .ints ⟨2, fun q => some (exArgsP.matTypes q)⟩,
    .dbls ⟨14, fun q => if q % 10 < 4 then some (exArgsP.params q) else none⟩]

theorem modelCalls_ex (calls : List (Call ℝ)) (s : ObjFiles ℝ) (ho : s.obj.Ok) :
    ∃ q, modelCalls exEnv calls s = .ok q := by
  induction calls generalizing s with
  | nil => exact ⟨_, rfl⟩
  | cons k l ih =>
    obtain ⟨r, h1, h2⟩ := (step_sane ho k).returns exEnv_quick
    obtain ⟨q, h3⟩ := ih r.state h2
    exact ⟨_, by rw [modelCalls, h1]; show (modelCalls exEnv l r.state >>= _) = _; rw [h3]; rfl⟩

/-- A Fortran program in space, with plasticity, runs to the end, and finds the stress of Gauss point 9 in its
variable. -/
example (f : Files ℝ) : ∃ (w' : World ℝ) (q : ObjFiles ℝ × List (Ret ℝ)),
    (constructF exEnv exArgsP exJunk f >>= modelCalls exEnv (exCalls ++ [.getStress 9 fun _ => 0])) = .ok q ∧
    (wText exEnv exJunk ⟨none, f, []⟩ .micropp_construct_ exCells >>= fun r =>
      fortranRun exEnv exJunk (exCalls ++ [.getStress 9 fun _ => 0]) r.1) = .ok (w', q.2) ∧
    w'.micro = some q.1.obj := by
  have ha := exArgsP_ok
  have hz : exArgsP.dim ≠ 2 → 2 ≤ exArgsP.size 2 := fun h => ha.nz (by rcases ha.dim with h' | h' <;> omega)
  have h := C100_program litLaws_real exEnv exJunk exJunk ⟨none, f, []⟩ (a := exArgsP) (int1_at _)
    (cs := .ints ⟨3, fun q => some (exArgsP.size q)⟩) ⟨_, rfl, fun q hq => by
      simp at hq; rcases hq with rfl | rfl | rfl <;> exact ⟨by decide, rfl⟩⟩ (int1_at _)
    (cm := .dbls ⟨5, fun q => some (exArgsP.microParams q)⟩) ⟨_, rfl, fun q hq => by
      simp at hq; rcases hq with rfl | rfl | rfl | rfl | rfl <;> exact ⟨by decide, rfl⟩⟩
    (cy := .ints ⟨2, fun q => some (exArgsP.matTypes q)⟩) ⟨_, rfl, fun q hq => by
      simp at hq; rcases hq with rfl | rfl <;> exact ⟨by decide, rfl⟩⟩
    (cp := .dbls ⟨14, fun q => if q % 10 < 4 then some (exArgsP.params q) else none⟩) ⟨_, rfl, fun q hq => by
      simp at hq; rcases hq with rfl | rfl | rfl | rfl | rfl | rfl | rfl | rfl <;> exact ⟨by decide, rfl⟩⟩
    ha.nx ha.ny hz (exCalls ++ [.getStress 9 fun _ => 0])
  obtain ⟨o, ho, hk⟩ := (construct_sane exEnv exArgsP_ok exJunk).returns exEnv_quick
  obtain ⟨q, hq⟩ := modelCalls_ex (exCalls ++ [.getStress 9 fun _ => 0]) ⟨o, ctorFiles o.cfg f⟩ hk
  have e : (constructF exEnv exArgsP exJunk f >>= modelCalls exEnv (exCalls ++ [.getStress 9 fun _ => 0])) = .ok q := by
    unfold constructF; rw [ho]; exact hq
  exact ⟨⟨some q.1.obj, q.1.files, []⟩, q, e, h.trans (by rw [e]; rfl), rfl⟩

/-- Before the construction a call dereferences NULL. -/
example (f : Files ℝ) : wText exEnv exJunk ⟨none, f, []⟩ .micropp_output_ [int1 3, int1 7] = .error .null :=
  C100_null exEnv exJunk _ rfl (by decide) rfl

/-- Four parameters of the cell, as in /repo/test/test3d_3.f90:36, are too few. -/
example (f : Files ℝ) : wText exEnv exJunk ⟨none, f, []⟩ .micropp_construct_
    [int1 2, .ints ⟨3, fun _ => some 10⟩, int1 0, .dbls ⟨4, fun _ => some 1⟩, .ints ⟨2, fun _ => some 0⟩,
      .dbls ⟨20, fun _ => some 1⟩] = .error .oob := rfl

/-- Wrong types of arguments. -/
example (f : Files ℝ) : wText exEnv exJunk ⟨some exP, f, []⟩ .micropp_set_macro_strain_
    [.dbls ⟨6, fun _ => some 1⟩, int1 7] = .error .abort := rfl

end Verif.Props
