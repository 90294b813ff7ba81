import Verif.Lemmas.TextRhs
import Verif.Lemmas.Built
import Verif.Spec.Fp

/-!
# C95: the statements of `assembly.cpp` do what the model says

`Text.body f` is the body of the function `f` of /repo/src/assembly.cpp:28-1182, extracted from the
source statement by statement; `Text.run c k f s` executes it, with calls nested at most `k` deep, on
the members `s.w` and the parameters `s.l`.  Local variables and entries of local arrays hold no value
before they are assigned; reading one without a value is the fault `uninit`, every index outside of an
array the fault `oob`.  The theorems say that the execution ends without a fault, and with the values
that the functions of `Model/Assembly.lean` return.
-/

namespace Verif.Props
open Text

variable {α : Type} [Scalar α] {c : Cfg α}

/-- A pointer to an array with room for `N` numbers, of which nothing is known. -/
def Room (o : Option (Vec α)) (N : Nat) : Prop := ∃ a, o = some a ∧ N ≤ a.n

/-- An array whose first `N` entries have been assigned and hold `f`. -/
def Filled (o : Option (Vec α)) (N : Nat) (f : Nat → α) : Prop :=
  ∃ a, o = some a ∧ N ≤ a.n ∧ ∀ q, q < N → a.val q = some (f q)

theorem Room.on {o : Option (Vec α)} {N : Nat} (h : Room o N) :
    VecOn o N (fun _ => False) (fun _ => (0 : α)) := by
  obtain ⟨a, h1, h2⟩ := h
  exact ⟨a, h1, h2, fun _ h => h.elim⟩

/-- C95: `set_displ` assigns the displacements of the model, in every object state. -/
theorem C95_set_displ (L : LitLaws α) (hc : c.Ok) {w : Work α} (hw : w.Ok c) (eps : Nat → α)
    {l : Loc α} (he : Filled (l.v .eps) c.nvoi eps) (k : Nat) (hk : 5 ≤ k) :
    ∃ t r, Text.run c k .set_displ ⟨w, l⟩ = .ok t ∧ setDispl c w eps = .ok r ∧ t.w = r := by
  obtain ⟨n, rfl⟩ := Nat.exists_eq_add_of_le' hk
  obtain ⟨u, h1, -⟩ := setDispl_ok hc hw eps
  rcases hc.dim with hd | hd
  · obtain ⟨t, h2, h3⟩ := run_set_displ2 (s := ⟨w, l⟩) (n := n + 4) L rfl hd h1 hc.nx hc.ny
      (by have : c.nvoi = 3 := by simp [Cfg.nvoi, hd]
          rwa [this] at he)
    exact ⟨t, _, h2, h1, h3⟩
  · obtain ⟨t, h2, h3⟩ := run_set_displ3 (s := ⟨w, l⟩) (n := n + 4) L rfl hd h1 hc.nx hc.ny (hc.nz3 hd)
      (by have : c.nvoi = 6 := by simp [Cfg.nvoi, hd]
          rwa [this] at he)
    exact ⟨t, _, h2, h1, h3⟩

theorem nz_pos (hc : c.Ok) : 1 ≤ c.nz := by
  rcases hc.dim with hd | hd
  · rw [hc.nz2 hd]
  · have := hc.nz3 hd; omega

/-- C95: `assembly_rhs` returns the norm, sets the flag and leaves the residual and the internal
variables of the model. -/
theorem C95_assembly_rhs (L : LitLaws α) (hc : c.Ok) {w : Work α} (hw : w.Ok c) (l : Loc α) (k : Nat)
    (hk : 5 ≤ k) :
    ∃ t r, Text.run c k .assembly_rhs ⟨w, l⟩ = .ok t ∧ assemblyRhs c w = .ok r ∧ t.w = r.work ∧
      t.l.d .ret = some r.norm ∧ t.l.i .non_linear = some (if r.nl = true then 1 else 0) := by
  obtain ⟨n, rfl⟩ := Nat.exists_eq_add_of_le' hk
  obtain ⟨b, vn, nm, nl, h1, -⟩ := rhs_ok hc hw
  rcases hc.dim with hd | hd
  · obtain ⟨t, h2, h3, h4, h5⟩ := run_assembly_rhs2 (s := ⟨w, l⟩) (n := n) L rfl hd h1 hc.nx hc.ny
      (nz_pos hc)
    exact ⟨t, _, h2, h1, h5, h3, h4⟩
  · obtain ⟨t, h2, h3, h4, h5⟩ := run_assembly_rhs3 (s := ⟨w, l⟩) (n := n) L rfl hd h1 hc.nx hc.ny
      (nz_pos hc)
    exact ⟨t, _, h2, h1, h5, h3, h4⟩

/-- C95: `calc_ave_stress` fills the array with the average of the model. -/
theorem C95_ave_stress (L : LitLaws α) (hc : c.Ok) {w : Work α} (hw : w.Ok c) {l : Loc α}
    (hr : Room (l.v .stress_ave) c.nvoi) (k : Nat) (hk : 5 ≤ k) :
    ∃ t r, Text.run c k .calc_ave_stress ⟨w, l⟩ = .ok t ∧ calcAveStress c w = .ok r ∧
      t.w = { w with varsNew := r.varsNew } ∧ Filled (t.l.v .stress_ave) c.nvoi r.ave := by
  obtain ⟨n, rfl⟩ := Nat.exists_eq_add_of_le' hk
  obtain ⟨av, vn, h1, -⟩ := calcAveStress_ok hc hw
  have hx : 1 ≤ c.nx := le_trans (by omega) hc.nx
  have hy : 1 ≤ c.ny := le_trans (by omega) hc.ny
  rcases hc.dim with hd | hd
  · have hv : c.nvoi = 3 := by simp [Cfg.nvoi, hd]
    rw [hv] at hr ⊢
    obtain ⟨t, h2, h3, h4⟩ := run_calc_ave_stress2 (s := ⟨w, l⟩) (n := n + 1) L rfl hd h1 hx hy
      (nz_pos hc) hr.on
    exact ⟨t, _, h2, h1, h4, h3.congr le_rfl fun _ hq => ⟨Or.inr hq, if_pos hq⟩⟩
  · have hv : c.nvoi = 6 := by simp [Cfg.nvoi, hd]
    rw [hv] at hr ⊢
    obtain ⟨t, h2, h3, h4⟩ := run_calc_ave_stress3 (s := ⟨w, l⟩) (n := n + 1) L rfl hd h1 hx hy
      (nz_pos hc) hr.on
    exact ⟨t, _, h2, h1, h4, h3.congr le_rfl fun _ hq => ⟨Or.inr hq, if_pos hq⟩⟩

/-- C95: `calc_ave_strain` fills the array with the average of the model. -/
theorem C95_ave_strain (L : LitLaws α) (hc : c.Ok) {w : Work α} (hw : w.Ok c) {l : Loc α}
    (hr : Room (l.v .strain_ave) c.nvoi) (k : Nat) (hk : 5 ≤ k) :
    ∃ t r, Text.run c k .calc_ave_strain ⟨w, l⟩ = .ok t ∧ calcAveStrain c w.u = .ok r ∧ t.w = w ∧
      Filled (t.l.v .strain_ave) c.nvoi r := by
  obtain ⟨n, rfl⟩ := Nat.exists_eq_add_of_le' hk
  have hx : 1 ≤ c.nx := le_trans (by omega) hc.nx
  have hy : 1 ≤ c.ny := le_trans (by omega) hc.ny
  rcases hc.dim with hd | hd
  · have hv : c.nvoi = 3 := by simp [Cfg.nvoi, hd]
    have h1 := calcAveStrain2_eq hd (hw.u2 hc hd)
    rw [hv] at hr ⊢
    obtain ⟨t, h2, h3, h4⟩ := run_calc_ave_strain2 (s := ⟨w, l⟩) (n := n + 2) L rfl hd h1 hx hy
      (nz_pos hc) hr.on
    exact ⟨t, _, h2, h1, h4, h3⟩
  · have hv : c.nvoi = 6 := by simp [Cfg.nvoi, hd]
    have h1 := calcAveStrain3_eq hd (hw.u3 hd)
    rw [hv] at hr ⊢
    obtain ⟨t, h2, h3, h4⟩ := run_calc_ave_strain3 (s := ⟨w, l⟩) (n := n + 2) L rfl hd h1 hx hy
      (nz_pos hc) hr.on
    exact ⟨t, _, h2, h1, h4, h3⟩

/-- C95: `calc_fields` leaves the fields of the model. -/
theorem C95_fields (L : LitLaws α) (hc : c.Ok) {w : Work α} (hw : w.Ok c) (l : Loc α) (k : Nat)
    (hk : 5 ≤ k) :
    ∃ t r, Text.run c k .calc_fields ⟨w, l⟩ = .ok t ∧ calcFields c w = .ok r ∧ t.w = r := by
  obtain ⟨n, rfl⟩ := Nat.exists_eq_add_of_le' hk
  have hx : 1 ≤ c.nx := le_trans (by omega) hc.nx
  have hy : 1 ≤ c.ny := le_trans (by omega) hc.ny
  obtain ⟨w', h1, -⟩ := calcFields_ok hc hw
  rcases hc.dim with hd | hd
  · obtain ⟨t, h2, h3⟩ := run_calc_fields2 (s := ⟨w, l⟩) (n := n + 1) L rfl hd h1 hx hy (nz_pos hc)
    exact ⟨t, _, h2, h1, h3⟩
  · obtain ⟨t, h2, h3⟩ := run_calc_fields3 (s := ⟨w, l⟩) (n := n + 1) L rfl hd h1 hx hy (nz_pos hc)
    exact ⟨t, _, h2, h1, h3⟩

/-- C95: `get_elem_mat2D` fills the element matrix of the model, for every element. -/
theorem C95_elem_mat2D (L : LitLaws α) (hc : c.Ok) (hd : c.dim = 2) (w : Work α) {l : Loc α}
    {ex ey : Nat} (hx : ex < c.nx - 1) (hy : ey < c.ny - 1) (hex : l.i .ex = some (ex : Int))
    (hey : l.i .ey = some (ey : Int)) (hr : Room (l.v .Ae) 64) (k : Nat) (hk : 5 ≤ k) :
    ∃ t r, Text.run c k .get_elem_mat2D ⟨w, l⟩ = .ok t ∧ getElemMat2D c ex ey = .ok r ∧ t.w = w ∧
      r.size = 64 ∧ Filled (t.l.v .Ae) 64 r.val := by
  obtain ⟨n, rfl⟩ := Nat.exists_eq_add_of_le' hk
  have h1 := getElemMat2D_eq hc hd hx hy
  obtain ⟨t, h2, h3, h4, h5⟩ := run_get_elem_mat2D (s := ⟨w, l⟩) (n := n + 3) L rfl hd h1 (by omega)
    (by omega) hex hey hr.on
  exact ⟨t, _, h2, h1, h5, h3, h4⟩

/-- C95: `get_elem_mat3D` fills the element matrix of the model and leaves its internal variables, for
every element. -/
theorem C95_elem_mat3D (L : LitLaws α) (hc : c.Ok) (hd : c.dim = 3) {w : Work α} (hw : w.Ok c)
    {l : Loc α} {ex ey ez : Nat} (hx : ex < c.nx - 1) (hy : ey < c.ny - 1) (hz : ez < c.nz - 1)
    (hex : l.i .ex = some (ex : Int)) (hey : l.i .ey = some (ey : Int))
    (hez : l.i .ez = some (ez : Int)) (hr : Room (l.v .Ae) 576) (k : Nat) (hk : 5 ≤ k) :
    ∃ t r, Text.run c k .get_elem_mat3D ⟨w, l⟩ = .ok t ∧
      getElemMat3D c w.u w.varsOld w.varsNew ex ey ez = .ok r ∧
      t.w = { w with varsNew := r.varsNew } ∧ Filled (t.l.v .Ae) 576 r.Ae := by
  obtain ⟨n, rfl⟩ := Nat.exists_eq_add_of_le' hk
  have h1 := getElemMat3D_eq hc hd (hw.u3 hd) hw.varsOld hw.varsNew hx hy hz
  obtain ⟨t, h2, h3, h4⟩ := run_get_elem_mat3D (s := ⟨w, l⟩) (n := n) L rfl hd h1 (by omega)
    (by omega) hex hey hez hr.on
  exact ⟨t, _, h2, h1, h4, h3⟩

/-- C95: `plastic_step` fills the plastic strain, the hardening variable, the flag and the stress of
the model, whatever the material, the strain and the history are. -/
theorem C95_plastic_step (L : LitLaws α) (w : Work α) {l : Loc α} {m : Material α}
    {eps ep : Nat → α} {al : α}
    (hk : l.d .material_k = some m.k) (hmu : l.d .material_mu = some m.mu)
    (hKa : l.d .material_Ka = some m.Ka) (hSy : l.d .material_Sy = some m.Sy)
    (he : Filled (l.v .eps) 6 eps) (hp : Filled (l.v .eps_p_old) 6 ep)
    (hal : l.d .alpha_old = some al) (hn : Room (l.v .eps_p_new) 6) (hst : Room (l.v .stress) 6)
    (hnl : l.i .non_linear = some 0) (k : Nat) (hk5 : 5 ≤ k) :
    ∃ t, Text.run c k .plastic_step ⟨w, l⟩ = .ok t ∧ t.w = w ∧
      Filled (t.l.v .eps_p_new) 6 (plasticStep m eps ep al).epsP ∧
      t.l.d .alpha_new = some (plasticStep m eps ep al).alpha ∧
      t.l.i .non_linear = some (if (plasticStep m eps ep al).nl = true then 1 else 0) ∧
      Filled (t.l.v .stress) 6 (plasticStep m eps ep al).stress := by
  obtain ⟨n, rfl⟩ := Nat.exists_eq_add_of_le' hk5
  obtain ⟨t, h1, -, h2, h3, h4, h5, h6⟩ := run_plastic_step (c := c) (s := ⟨w, l⟩) (n := n + 3) L rfl hk
    hmu hKa hSy he hp hal hn.on hst.on hnl
  exact ⟨t, h1, h6, h2, h3, h4, h5⟩

/-- C95 for the objects of a program: whatever was constructed (with sensible arguments) and called
before, the text of each of the functions that `homogenize` and `output` use runs without a fault and
returns what the model returns. -/
theorem C95_reachable (L : LitLaws α) {env : Env α} {a : Args α} (ha : a.Ok) {j : Junk α}
    {calls : List (Call α)} {s : ObjFiles α} (h : Reach env a j calls s) (eps : Nat → α) :
    (∃ t r, Text.run s.obj.cfg 5 .set_displ ⟨s.obj.work,
        { Loc.none with v := upd Loc.none.v .eps (some ⟨6, fun q => some (eps q)⟩) }⟩ = .ok t ∧
      setDispl s.obj.cfg s.obj.work eps = .ok r ∧ t.w = r) ∧
    (∃ t r, Text.run s.obj.cfg 5 .assembly_rhs ⟨s.obj.work, Loc.none⟩ = .ok t ∧
      assemblyRhs s.obj.cfg s.obj.work = .ok r ∧ t.w = r.work ∧ t.l.d .ret = some r.norm ∧
      t.l.i .non_linear = some (if r.nl = true then 1 else 0)) ∧
    (∃ t r, Text.run s.obj.cfg 5 .calc_ave_stress ⟨s.obj.work,
        { Loc.none with v := upd Loc.none.v .stress_ave (some ⟨6, fun _ => none⟩) }⟩ = .ok t ∧
      calcAveStress s.obj.cfg s.obj.work = .ok r ∧
      t.w = { s.obj.work with varsNew := r.varsNew } ∧
      Filled (t.l.v .stress_ave) s.obj.cfg.nvoi r.ave) ∧
    (∃ t r, Text.run s.obj.cfg 5 .calc_fields ⟨s.obj.work, Loc.none⟩ = .ok t ∧
      calcFields s.obj.cfg s.obj.work = .ok r ∧ t.w = r) := by
  obtain ⟨-, ho⟩ := reach_built ha h
  have hv : s.obj.cfg.nvoi ≤ 6 := by
    unfold Cfg.nvoi; split <;> omega
  refine ⟨C95_set_displ L ho.cfg ho.work eps ⟨⟨6, fun q => some (eps q)⟩, rfl, hv, fun q _ => rfl⟩ 5 le_rfl,
    C95_assembly_rhs L ho.cfg ho.work _ 5 le_rfl,
    C95_ave_stress L ho.cfg ho.work ⟨⟨6, fun _ => none⟩, rfl, hv⟩ 5 le_rfl,
    C95_fields L ho.cfg ho.work _ 5 le_rfl⟩

/-! ## What the semantics takes for granted about the text -/

/-- The variables of an expression of type `int`. -/
def ivars : IExp → List V
  | .lit _ => [] | .mem _ => [] | .var x => [x]
  | .rd x i => x :: ivars i | .elemType i => ivars i | .matPlasticity i => ivars i
  | .add a b => ivars a ++ ivars b | .sub a b => ivars a ++ ivars b | .mul a b => ivars a ++ ivars b
  | .mod a b => ivars a ++ ivars b | .tab _ i j => ivars i ++ ivars j

/-- The variables that the arguments of a call hand over by reference. -/
def refs : List Arg → List V
  | [] => []
  | .ref x :: l => x :: refs l
  | _ :: l => refs l

/-- The members that the arguments of a call hand over. -/
def mems : List Arg → List GA
  | [] => []
  | .mem g :: l => g :: mems l
  | _ :: l => mems l

/-- How often the arguments of a call hand over a matrix. -/
def ells : List Arg → Nat
  | [] => 0
  | .A :: l => ells l + 1
  | .ell :: l => ells l + 1
  | _ :: l => ells l

/-- Bounds of loops do not change in the loop, the loop does not assign its counter, and no call hands
over a variable, a member or a matrix twice. -/
def tidy : Stmt → Bool
  | .seq s t => tidy s && tidy t
  | .ite _ s t => tidy s && tidy t
  | .for x _ hi s => tidy s && !((s.eff fun _ => Eff.nil).i x) && !(ivars hi).contains x &&
      (ivars hi).all fun y => !((s.eff fun _ => Eff.nil).i y) && !((s.eff fun _ => Eff.nil).iv y)
  | .call f args => decide (refs args).Nodup && decide (mems args).Nodup && decide (ells args ≤ 1) &&
      decide (args.length = (params f).length)
  | .doW n s _ t _ => tidy s && tidy t && (ivars n).all fun y =>
      !(((s ;; t).eff fun _ => Eff.nil).i y) && !(((s ;; t).eff fun _ => Eff.nil).iv y)
  | _ => true

/-- C95: copying arguments in and out, and evaluating the bound of a loop once, is what the compiler
does too, since the text is tidy. -/
theorem C95_tidy (f : Fn) : tidy (body f) = true := by
  cases f <;> decide +kernel

/-! ## Examples -/

theorem litLaws_real : LitLaws ℝ := ⟨by norm_num, by norm_num, by norm_num⟩

/-- The literals of rounded arithmetic; C95 holds there too. -/
theorem litLaws_rounded (fp : Spec.Fp) : LitLaws (Spec.Fl fp) := by
  refine ⟨?_, ?_, ?_⟩
  · show Spec.Fl.round fp ((0 : Nat) : ℝ) = ⟨0, fp.zero⟩
    simp [Spec.Fl.round, fp.fix 0 fp.zero]
  · show Spec.Fl.round fp ((1 : Nat) : ℝ) = ⟨1, fp.one⟩
    simp [Spec.Fl.round, fp.fix 1 fp.one]
  · show Spec.Fl.round fp (0.0 : ℝ) = ⟨0, fp.zero⟩
    have : (0.0 : ℝ) = 0 := by norm_num
    simp [Spec.Fl.round, this, fp.fix 0 fp.zero]

/-- The hypotheses are met by an object that has been through a history of calls, in space. -/
example : ∃ s, Reach exEnv exArgsP exJunk exCalls s ∧
    ∃ t, Text.run s.obj.cfg 5 .assembly_rhs ⟨s.obj.work, Loc.none⟩ = .ok t := by
  obtain ⟨s, hs⟩ := reach_exists exEnv_quick exArgsP_ok exJunk exCalls
  obtain ⟨t, r, h, -⟩ := (C95_reachable litLaws_real exArgsP_ok hs fun _ => 1).2.1
  exact ⟨s, hs, t, h⟩

/-- The semantics does distinguish: a function that reads its array before it was filled faults. -/
example (w : Work ℝ) (c : Cfg ℝ) : Text.run c 5 .get_dev_tensor ⟨w, Loc.none⟩ = .error .uninit := rfl

/-- Local variables of which one array of `n` entries exists. -/
def exLoc (name : V) (n : Nat) (f : Nat → Option ℝ) : Loc ℝ :=
  { Loc.none with v := upd Loc.none.v name (some ⟨n, f⟩) }

/-- An array of six entries is large enough. -/
theorem nvoi_six {c : Cfg ℝ} : c.nvoi ≤ 6 := by unfold Cfg.nvoi; split <;> omega

/-- `set_displ`, `assembly_rhs`, the averages and the fields of a plastic cell in space. -/
example : ∃ t, Text.run exP.cfg 5 .set_displ ⟨exP.work, exLoc .eps 6 fun q => some q⟩ = .ok t ∧
    setDispl exP.cfg exP.work (fun q => (q : ℝ)) = .ok t.w := by
  obtain ⟨t, r, h1, h2, h3⟩ := C95_set_displ litLaws_real exP_ok exP_work (fun q => (q : ℝ))
    (l := exLoc .eps 6 fun q => some q) ⟨_, rfl, nvoi_six, fun _ _ => rfl⟩ 5 le_rfl
  exact ⟨t, h1, by rw [h2, h3]⟩

example : ∃ t r, Text.run exP.cfg 5 .assembly_rhs ⟨exP.work, Loc.none⟩ = .ok t ∧
    assemblyRhs exP.cfg exP.work = .ok r ∧ t.l.d .ret = some r.norm := by
  obtain ⟨t, r, h1, h2, -, h3, -⟩ := C95_assembly_rhs litLaws_real exP_ok exP_work Loc.none 5 le_rfl
  exact ⟨t, r, h1, h2, h3⟩

example : ∃ t r, Text.run exP.cfg 5 .calc_ave_stress ⟨exP.work, exLoc .stress_ave 6 fun _ => none⟩ = .ok t ∧
    calcAveStress exP.cfg exP.work = .ok r ∧ Filled (t.l.v .stress_ave) 6 r.ave := by
  obtain ⟨t, r, h1, h2, -, h3⟩ := C95_ave_stress litLaws_real exP_ok exP_work
    (l := exLoc .stress_ave 6 fun _ => none) ⟨_, rfl, nvoi_six⟩ 5 le_rfl
  exact ⟨t, r, h1, h2, by simpa [Cfg.nvoi, exP_dim] using h3⟩

example : ∃ t r, Text.run exP.cfg 5 .calc_ave_strain ⟨exP.work, exLoc .strain_ave 6 fun _ => none⟩ = .ok t ∧
    calcAveStrain exP.cfg exP.work.u = .ok r ∧ Filled (t.l.v .strain_ave) 6 r := by
  obtain ⟨t, r, h1, h2, -, h3⟩ := C95_ave_strain litLaws_real exP_ok exP_work
    (l := exLoc .strain_ave 6 fun _ => none) ⟨_, rfl, nvoi_six⟩ 5 le_rfl
  exact ⟨t, r, h1, h2, by simpa [Cfg.nvoi, exP_dim] using h3⟩

example : ∃ t, Text.run exP.cfg 5 .calc_fields ⟨exP.work, Loc.none⟩ = .ok t ∧ calcFields exP.cfg exP.work = .ok t.w := by
  obtain ⟨t, r, h1, h2, h3⟩ := C95_fields litLaws_real exP_ok exP_work Loc.none 5 le_rfl
  exact ⟨t, h1, by rw [h2, h3]⟩

/-- The matrices of the element (2, 1), in the plane, and (2, 1, 1), in space. -/
example : ∃ t r, Text.run ex2.cfg 5 .get_elem_mat2D ⟨ex2.work, { exLoc .Ae 64 fun _ => none with
      i := upd (upd (Loc.none : Loc ℝ).i .ex (some 2)) .ey (some 1) }⟩ = .ok t ∧
    getElemMat2D ex2.cfg 2 1 = .ok r ∧ Filled (t.l.v .Ae) 64 r.val := by
  obtain ⟨t, r, h1, h2, -, -, h3⟩ := C95_elem_mat2D litLaws_real ex2_ok ex2_dim ex2.work
    (l := { exLoc .Ae 64 fun _ => none with i := upd (upd (Loc.none : Loc ℝ).i .ex (some 2)) .ey (some 1) })
    (ex := 2) (ey := 1) (by rw [ex2_size.1]; omega) (by rw [ex2_size.2.1]; omega) rfl rfl ⟨_, rfl, le_rfl⟩ 5 le_rfl
  exact ⟨t, r, h1, h2, h3⟩

example : ∃ t r, Text.run ex3.cfg 5 .get_elem_mat3D ⟨ex3.work, { exLoc .Ae 576 fun _ => none with
      i := upd (upd (upd (Loc.none : Loc ℝ).i .ex (some 2)) .ey (some 1)) .ez (some 1) }⟩ = .ok t ∧
    getElemMat3D ex3.cfg ex3.work.u ex3.work.varsOld ex3.work.varsNew 2 1 1 = .ok r ∧
    Filled (t.l.v .Ae) 576 r.Ae := by
  obtain ⟨t, r, h1, h2, -, h3⟩ := C95_elem_mat3D litLaws_real ex3_ok ex3_dim ex3_work
    (l := { exLoc .Ae 576 fun _ => none with
      i := upd (upd (upd (Loc.none : Loc ℝ).i .ex (some 2)) .ey (some 1)) .ez (some 1) })
    (ex := 2) (ey := 1) (ez := 1) (by rw [ex3_size.1]; omega) (by rw [ex3_size.2.1]; omega)
    (by rw [ex3_size.2.2]; omega) rfl rfl rfl ⟨_, rfl, le_rfl⟩ 5 le_rfl
  exact ⟨t, r, h1, h2, h3⟩

/-- One step of the plastic law from a history that is not zero. -/
example (c : Cfg ℝ) (w : Work ℝ) (m : Material ℝ) : ∃ t, Text.run c 5 .plastic_step ⟨w, { (Loc.none : Loc ℝ) with
      d := fun name => match name with
        | .material_k => some m.k | .material_mu => some m.mu | .material_Ka => some m.Ka
        | .material_Sy => some m.Sy | .alpha_old => some 2 | _ => none
      i := upd (Loc.none : Loc ℝ).i .non_linear (some 0)
      v := fun name => match name with
        | .eps => some ⟨6, fun q => some q⟩ | .eps_p_old => some ⟨6, fun q => some (q / 2)⟩
        | .eps_p_new => some ⟨6, fun _ => none⟩ | .stress => some ⟨6, fun _ => none⟩ | _ => none }⟩ = .ok t ∧
    t.l.d .alpha_new = some (plasticStep m (fun q => (q : ℝ)) (fun q => (q / 2 : ℝ)) 2).alpha := by
  obtain ⟨t, h1, -, -, h2, -⟩ := C95_plastic_step (c := c) litLaws_real w (l := { (Loc.none : Loc ℝ) with
      d := fun name => match name with
        | .material_k => some m.k | .material_mu => some m.mu | .material_Ka => some m.Ka
        | .material_Sy => some m.Sy | .alpha_old => some 2 | _ => none
      i := upd (Loc.none : Loc ℝ).i .non_linear (some 0)
      v := fun name => match name with
        | .eps => some ⟨6, fun q => some q⟩ | .eps_p_old => some ⟨6, fun q => some (q / 2)⟩
        | .eps_p_new => some ⟨6, fun _ => none⟩ | .stress => some ⟨6, fun _ => none⟩ | _ => none })
    (m := m) (eps := fun q => (q : ℝ)) (ep := fun q => (q / 2 : ℝ)) (al := 2) rfl rfl rfl rfl
    ⟨_, rfl, le_rfl, fun _ _ => rfl⟩ ⟨_, rfl, le_rfl, fun _ _ => rfl⟩ rfl ⟨_, rfl, le_rfl⟩ ⟨_, rfl, le_rfl⟩ rfl 5 le_rfl
  exact ⟨t, h1, h2⟩

/-- `tidy` says something: it refuses a loop that assigns its own counter, and a call with one array for two
parameters. -/
example : tidy (.for .i (.lit 0) (.lit 3) (.setI .i (.lit 0))) = false := by decide +kernel

end Verif.Props
