import Verif.Lemmas.Site

/-!
# C70, C71: integer expressions and array accesses outside of the matrix routines

`intSites` and `useSites` are the integer expressions and the array accesses of
/repo/src/{micro,assembly,solve,homogenize,output}.cpp with the loops and the tests of `dim` around
them.  `Cls σ`: the members have the values the constructor gives them.
-/

namespace Verif.Props
open CExpr

variable {σ : SV → Int}

/-- C70: in the plane no integer expression overflows if neither the entries of the matrix nor the
internal variables reach `2^31`. -/
theorem C70_plane (C : Cls σ) (hd : σ .dim = 2) (h1 : 36 * σ .nx * σ .ny < 2 ^ 31)
    (h2 : 56 * ((σ .nx - 1) * (σ .ny - 1)) < 2 ^ 31) :
    ∀ s ∈ intSites, (∀ f ∈ s.ctx, f.Holds σ) → s.use.Safe σ := by
  intro s hs hc
  exact SiteCheck.check_sound C (s := s) (fun _ _ => ⟨fun _ => ⟨h1, h2⟩, fun h => by omega⟩)
    (SiteCheck.ints_checked s hs) hc

/-- C70: in space no integer expression overflows if the entries of the matrix do not reach `2^31`. -/
theorem C70_space (C : Cls σ) (hd : σ .dim = 3) (h1 : 243 * σ .nx * σ .ny * σ .nz < 2 ^ 31) :
    ∀ s ∈ intSites, (∀ f ∈ s.ctx, f.Holds σ) → s.use.Safe σ := by
  intro s hs hc
  exact SiteCheck.check_sound C (s := s) (fun _ _ => ⟨fun h => by omega, fun _ => h1⟩)
    (SiteCheck.ints_checked s hs) hc

/-- A cell with 206 nodes per side; the variables of the last element and last Gauss point. -/
def exSite3 : SV → Int
  | .dim => 3 | .nx => 206 | .ny => 206 | .nz => 206 | .nn => 8741816
  | .npe => 8 | .nvoi => 6 | .nelem => 8615125 | .num_int_vars => 482447000
  | .numMaterials => 2 | .nParams => 5
  | .i => 5 | .j => 5 | .k => 5 | .m => 5 | .n => 8741815 | .d => 2 | .v => 5 | .e => 8615124
  | .gp => 7 | .ex => 204 | .ey => 204 | .ez => 204
  | .n0 => 8699172 | .n1 => 8699173 | .n2 => 8699379 | .n3 => 8699378
  | .n4 => 8741608 | .n5 => 8741609 | .n6 => 8741815 | .n7 => 8741814
  | .index_i => 26225447 | .mat_num => 1 | .ce => 68921000

/-- The hypotheses of `C70_space` hold for it, also those on the surroundings of the index of the last
internal variable, /repo/src/assembly.cpp:993. -/
example : Cls exSite3 ∧ exSite3 .dim = 3 ∧ 243 * exSite3 .nx * exSite3 .ny * exSite3 .nz < 2 ^ 31 ∧
    ∃ s ∈ intSites, 993 ∈ s.lines ∧ s.ctx.length = 6 ∧ ∀ f ∈ s.ctx, f.Holds exSite3 :=
  ⟨SiteCheck.cls_of (by decide +kernel), by decide +kernel, by decide +kernel, by decide +kernel⟩

/-- A plane cell with 6193 nodes per side; the variables of the last element. -/
def exSite2 : SV → Int
  | .dim => 2 | .nx => 6193 | .ny => 6193 | .nz => 1 | .nn => 38353249
  | .npe => 4 | .nvoi => 3 | .nelem => 38340864 | .num_int_vars => 2147088384
  | .numMaterials => 2 | .nParams => 5
  | .i => 7 | .ex => 6191 | .ey => 6191 | .n0 => 38347054 | .n2 => 38353248 | .d => 1
  | .e => 38340863 | .v => 2
  | _ => 0

/-- The hypotheses of `C70_plane` hold for it, also those on the surroundings of the number of the
third node of an element, /repo/src/assembly.cpp:196. -/
example : Cls exSite2 ∧ exSite2 .dim = 2 ∧ 36 * exSite2 .nx * exSite2 .ny < 2 ^ 31 ∧
    56 * ((exSite2 .nx - 1) * (exSite2 .ny - 1)) < 2 ^ 31 ∧
    ∃ s ∈ intSites, 196 ∈ s.lines ∧ s.ctx.length = 4 ∧ ∀ f ∈ s.ctx, f.Holds exSite2 :=
  ⟨SiteCheck.cls_of (by decide +kernel), by decide +kernel, by decide +kernel, by decide +kernel,
    by decide +kernel⟩

/-- `num_int_vars(nelem * 8 * NUM_VAR_GP)`, /repo/src/micro.cpp:52. -/
def varsExp : SExp := .mul (.mul (.var .nelem) (.lit 8)) (.lit 7)

/-- C70: the second hypothesis of `C70_plane` is needed, and does not follow from the first.  The
number of internal variables overflows for squares from 6194 nodes per side; the matrix would fit up to
7723. -/
theorem C70_square {n : Int} (hn : 2 ≤ n) (C : Cls σ) (hd : σ .dim = 2) (hx : σ .nx = n)
    (hy : σ .ny = n) : (varsExp.run32 σ = none ↔ 6194 ≤ n) ∧ (36 * n * n < 2 ^ 31 ↔ n ≤ 7723) := by
  obtain ⟨-, -, -, -, he⟩ : σ .dim = 2 ∧ σ .nz = 1 ∧ σ .npe = 4 ∧ σ .nvoi = 3 ∧
      σ .nelem = (σ .nx - 1) * (σ .ny - 1) := by
    rcases C.dim with h | h
    · exact h
    · omega
  rw [hx, hy] at he
  have h1 : 1 ≤ σ .nelem := by rw [he]; nlinarith
  have hp : PosFit σ varsExp := ((PosFit.var h1).mul (.lit (by omega))).mul (.lit (by omega))
  have ev : varsExp.eval σ = 56 * ((n - 1) * (n - 1)) := by
    simp only [varsExp, eval, he]; ring
  rw [hp.none_iff, ev]
  refine ⟨⟨fun h => ?_, fun h => ?_⟩, fun h => ?_, fun h => ?_⟩
  · by_contra hc
    have h2 : (n - 1) * (n - 1) ≤ 6192 * 6192 :=
      mul_le_mul (by omega) (by omega) (by omega) (by omega)
    omega
  · have h2 : 6193 * 6193 ≤ (n - 1) * (n - 1) :=
      mul_le_mul (by omega) (by omega) (by omega) (by omega)
    omega
  · by_contra hc
    have h2 : 7724 * 7724 ≤ n * n := mul_le_mul (by omega) (by omega) (by omega) (by omega)
    have : 36 * n * n = 36 * (n * n) := by ring
    omega
  · have h2 : n * n ≤ 7723 * 7723 := mul_le_mul (by omega) (by omega) (by omega) (by omega)
    have : 36 * n * n = 36 * (n * n) := by ring
    omega

/-- It is one of the expressions, evaluated whatever the arguments are. -/
theorem C70_square_site : ∃ s ∈ intSites, s.ctx = [] ∧ s.use = .fits varsExp := by
  refine ⟨⟨"micro.cpp", [52], [], .fits varsExp⟩, ?_, rfl, rfl⟩
  unfold intSites
  simp only [List.mem_append]
  refine .inl (.inl (.inl (.inl (.inl ?_))))
  unfold microInts0
  simp [varsExp]

/-- A plane cell with 6194 nodes per side. -/
example : Cls (fun v => match v with
    | .dim => 2 | .nx => 6194 | .ny => 6194 | .nz => 1 | .nn => 38365636 | .npe => 4 | .nvoi => 3
    | .nelem => 38353249 | .num_int_vars => 2147781944 | .numMaterials => 2 | .nParams => 5
    | _ => 0) := SiteCheck.cls_of (by decide +kernel)

/-- C71: no array is accessed outside of its bounds, every function gets arrays with as many entries as
it uses, and parameters within the ranges assumed for them. -/
theorem C71_uses (C : Cls σ) :
    ∀ s ∈ useSites, (∀ f ∈ s.ctx, f.Holds σ) → s.use.Safe σ := by
  intro s hs hc
  refine SiteCheck.check_sound C (s := s) (fun e he => ?_) (SiteCheck.uses_checked s hs) hc
  exact absurd ⟨e, he⟩ (SiteCheck.uses_not_fits s hs)

/-- Every place is reached for some cell and some values of the counters. -/
theorem C71_reached : ∀ s ∈ intSites ++ useSites,
    ∃ σ : SV → Int, Cls σ ∧ ∀ f ∈ s.ctx, f.Holds σ := by
  intro s hs
  have h := SiteCheck.reachable s hs
  rw [Bool.or_eq_true] at h
  rcases h with h | h <;>
  · simp only [SiteCheck.reach?, Bool.and_eq_true, decide_eq_true_eq] at h
    exact ⟨_, SiteCheck.cls_of h.1, h.2⟩

/-- `C71_uses` for the last entry of `vars_new`, /repo/src/assembly.cpp:993. -/
example : Cls exSite3 ∧ ∃ s ∈ useSites, 993 ∈ s.lines ∧ s.ctx.length = 6 ∧
    ∀ f ∈ s.ctx, f.Holds exSite3 :=
  ⟨SiteCheck.cls_of (by decide +kernel), by decide +kernel⟩

/-- C71: the arrays of the caller.  The constructor uses `_micro_params[0..4]`, `params[0..13]`,
`mat_types[0..1]` and `size[0..dim-1]`; `set_macro_strain` and `get_macro_stress` use `nvoi` entries,
`get_macro_ctan` uses `nvoi * nvoi`. -/
theorem C71_caller (C : Cls σ) : ∀ s ∈ useSites, (∀ f ∈ s.ctx, f.Holds σ) → ∀ e size,
    (s.use = .index "_micro_params" e size → 0 ≤ e.eval σ ∧ e.eval σ < 5) ∧
    (s.use = .index "params" e size → 0 ≤ e.eval σ ∧ e.eval σ < 14) ∧
    (s.use = .index "mat_types" e size → 0 ≤ e.eval σ ∧ e.eval σ < 2) ∧
    (s.use = .index "size" e size → 0 ≤ e.eval σ ∧ e.eval σ < σ .dim) := by
  intro s hs hc e size
  have hsafe := C71_uses C s hs hc
  have key : ∀ (a : String) (z : SExp), (useSites.all fun s => match s.use with
      | .index b _ w => !decide (b = a) || decide (w = z)
      | _ => true) = true → s.use = .index a e size → 0 ≤ e.eval σ ∧ e.eval σ < z.eval σ := by
    intro a z h hu
    have h1 := List.all_eq_true.1 h s hs
    rw [hu] at h1 hsafe
    simp only [decide_true, Bool.not_true, Bool.false_or, decide_eq_true_eq] at h1
    rw [h1] at hsafe
    exact hsafe
  exact ⟨key "_micro_params" (.lit 5) (by decide +kernel), key "params" (.lit 14) (by decide +kernel),
    key "mat_types" (.lit 2) (by decide +kernel), key "size" (.var .dim) (by decide +kernel)⟩

/-- The use is an access to the named array. -/
def Use.isIndex (a : String) : Use → Bool
  | .index n _ _ => n == a
  | _ => false

/-- The variables of the constructor at the second material. -/
def exSite4 (v : SV) : Int := if v = .i then 1 else exSite3 v

/-- A use of `params` in the constructor. -/
example : Cls exSite4 ∧ ∃ s ∈ useSites, ∃ e size, s.use = .index "params" e size ∧
    (∀ f ∈ s.ctx, f.Holds exSite4) ∧ 0 ≤ e.eval exSite4 ∧ e.eval exSite4 < 14 := by
  have hC : Cls exSite4 := SiteCheck.cls_of (by decide +kernel)
  have h : ∃ s ∈ useSites, Use.isIndex "params" s.use = true ∧ ∀ f ∈ s.ctx, f.Holds exSite4 := by decide +kernel
  obtain ⟨s, hs, h1, h2⟩ := h
  refine ⟨hC, s, hs, ?_⟩
  unfold Use.isIndex at h1
  split at h1
  · rename_i n e size hu
    have h1 : n = "params" := by simpa using h1
    subst h1
    exact ⟨e, size, hu, h2, (C71_caller hC s hs h2 e size).2.1 hu⟩
  · cases h1

/-- C71: five entries of `_micro_params` are needed in the plane and in space: the constructor reads the
fifth.  The driver /repo/test/test3d_3.f90:36 passes four. -/
theorem C71_params_needed (space : Bool) : ∃ s ∈ useSites, ∃ e size,
    s.use = .index "_micro_params" e size ∧ ∃ σ : SV → Int, Cls σ ∧
      σ .dim = (if space then 3 else 2) ∧ (∀ f ∈ s.ctx, f.Holds σ) ∧ e.eval σ = 4 := by
  refine ⟨⟨"micro.cpp", [84], [.loop .i (.lit 0) (.var .nParams)],
    .index "_micro_params" (.var .i) (.lit 5)⟩, ?_, .var .i, .lit 5, rfl,
    fun v => if v = .i then 4 else SiteCheck.cell4 space v, ?_, ?_, ?_, rfl⟩
  · unfold useSites
    simp only [List.mem_append]
    repeat' first | (refine Or.inl ?_)
    unfold microUses0
    simp
  · cases space <;> exact SiteCheck.cls_of (by decide +kernel)
  · cases space <;> rfl
  · cases space <;> decide +kernel

end Verif.Props
