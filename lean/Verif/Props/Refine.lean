import Verif.Lemmas.Refine
import Verif.Props.Symmetry
import Mathlib.Topology.Order.MonotoneConvergence
import Mathlib.Topology.Algebra.Ring.Real

/-!
# Refinement of the grid: property C82

Exact arithmetic, admissible elastic materials.  The inequality rests on the digits of the Gauss point in
the source: its square is at least 1/3, so that the quadrature never gives a divided element more energy
than the whole.  With a digit less, rounded down, it would fail.
-/

namespace Verif.Props
open Verif Spec Finset Filter

variable {c c' : Cfg ℝ} {w w' : Work ℝ}

/-- The second cell has the edges of the first; its elements divide those of the first and have their
materials. -/
structure FinerCell (m : Nat → Nat) (c c' : Cfg ℝ) : Prop where
  grid : c.fe.Refines c'.fe m
  lz : c.dim = 3 → c'.lz = c.lz
  mu : ∀ e ∈ c'.fe.elems, (c'.matAt e).mu = (c.matAt (Fe.parent m e)).mu
  lambda : ∀ e ∈ c'.fe.elems, (c'.matAt e).lambda = (c.matAt (Fe.parent m e)).lambda

theorem FinerCell.eqs {m : Nat → Nat} (hm : FinerCell m c c') (hc : c.Ok) (hc' : c'.Ok) :
    c'.dim = c.dim ∧ c'.nvoi = c.nvoi ∧ c'.thick = c.thick := by
  have hd : c'.dim = c.dim := by
    have := hm.grid.dim; rw [c.fe_dim hc, c'.fe_dim hc'] at this; exact this
  refine ⟨hd, by unfold Cfg.nvoi; rw [hd], ?_⟩
  unfold Cfg.thick
  rw [hd]
  split
  · rfl
  · exact hm.lz (hc.dim.resolve_left (by assumption))

/-- **C82**: divide every element of a cell into equal parts, and the cell resists every macro strain at
most as much. -/
theorem C82_refine (hc : c.Ok) (hg : c.Geom) (he : c.Elastic) (hc' : c'.Ok) (hg' : c'.Geom) (he' : c'.Elastic)
    {m : Nat → Nat} (hm : FinerCell m c c') {eps : Nat → ℝ} (hq : Equilibrium c w eps) (hq' : Equilibrium c' w' eps) :
    ∃ r r', calcAveStress c w = .ok r ∧ calcAveStress c' w' = .ok r' ∧
      c.fe.pair r'.ave eps ≤ c.fe.pair r.ave eps := by
  obtain ⟨h1, h2, r, h3, h4⟩ := equil_ave hc hg he hq
  obtain ⟨g1, g2, r', g3, g4⟩ := equil_ave hc' hg' he' hq'
  obtain ⟨hd, hnv, ht⟩ := hm.eqs hc hc'
  refine ⟨r, r', h3, g3, ?_⟩
  have e' : c.fe.pair r'.ave eps = c'.fe.pair r'.ave eps := by
    unfold Fe.pair; rw [c.fe_nvoi, c'.fe_nvoi, hnv]
  rw [e', pair_thick r.ave _ eps _ h4, pair_thick r'.ave _ eps _ g4, ht]
  refine mul_le_mul_of_nonneg_left ?_ (thick_pos hc hg).le
  refine Fe.macro_refine (c.good hc hg) (c'.good hc' hg') hm.grid (c.law_ok hc he) (c'.law_ok hc' he')
    (fun e hmem x v _ => ?_) h1 g1 h2 g2
  rw [law_iso, law_iso, hd, hm.mu e hmem, hm.lambda e hmem]

theorem stiffness_pair (hc : c.Ok) (hg : c.Geom) (he : c.Elastic) (hw : w.Ok c) {C : Nat → Nat → ℝ}
    (hC : IsStiffness c C) (eps : Nat → ℝ) : ∃ u r, Equilibrium c { w with u := u } eps ∧
      calcAveStress c { w with u := u } = .ok r ∧
      c.fe.pair r.ave eps = ∑ v ∈ range c.nvoi, ∑ i ∈ range c.nvoi, eps v * C v i * eps i := by
  obtain ⟨u, hu⟩ := equilibrium_exists hc hg he hw eps
  obtain ⟨r, h1, h2⟩ := hC _ _ hu
  refine ⟨u, r, hu, h1, ?_⟩
  unfold Fe.pair
  rw [c.fe_nvoi]
  refine sum_congr rfl fun v hv => ?_
  rw [h2 v (mem_range.mp hv), sum_mul]
  exact sum_congr rfl fun i _ => by ring

/-- C82 for the homogenised stiffness. -/
theorem C82_stiffness (hc : c.Ok) (hg : c.Geom) (he : c.Elastic) (hc' : c'.Ok) (hg' : c'.Geom) (he' : c'.Elastic)
    (hw : w.Ok c) (hw' : w'.Ok c') {m : Nat → Nat} (hm : FinerCell m c c') {C C' : Nat → Nat → ℝ}
    (hC : IsStiffness c C) (hC' : IsStiffness c' C') (x : Nat → ℝ) :
    ∑ v ∈ range c.nvoi, ∑ i ∈ range c.nvoi, x v * C' v i * x i
      ≤ ∑ v ∈ range c.nvoi, ∑ i ∈ range c.nvoi, x v * C v i * x i := by
  obtain ⟨u, r, h1, h2, h3⟩ := stiffness_pair hc hg he hw hC x
  obtain ⟨u', r', g1, g2, g3⟩ := stiffness_pair hc' hg' he' hw' hC' x
  obtain ⟨s, s', k1, k2, k3⟩ := C82_refine hc hg he hc' hg' he' hm h1 g1
  rw [h2] at k1; cases k1
  rw [g2] at k2; cases k2
  obtain ⟨hd, hnv, -⟩ := hm.eqs hc hc'
  have e' : c.fe.pair r'.ave x = c'.fe.pair r'.ave x := by
    unfold Fe.pair; rw [c.fe_nvoi, c'.fe_nvoi, hnv]
  rw [e', h3, g3, hnv] at k3
  exact k3

/-! ### Objects obtained from the constructor -/

variable {env env' : Env ℝ} {a a' : Args ℝ} {j j' : Junk ℝ} {calls calls' : List (Call ℝ)} {s s' : ObjFiles ℝ}

/-- The calls of the constructor describe the same layered cell, the second with a grid that divides every
element of the first; the layers end at a grid line of the first. -/
structure FinerArgs (m : Nat → Nat) (a a' : Args ℝ) : Prop where
  dim : a'.dim = a.dim
  size : ∀ k, k < a.dim → a'.size k - 1 = m k * (a.size k - 1)
  flat : a.dim = 2 → m 2 = 1
  micro : a.microType = 1
  micro' : a'.microType = 1
  length : ∀ k, k < 4 → a'.microParams k = a.microParams k
  E : ∀ i, i < 2 → a'.params (10 * i) = a.params (10 * i)
  nu : ∀ i, i < 2 → a'.params (10 * i + 1) = a.params (10 * i + 1)
  line : ∃ n : Nat, a.microParams 3 = n * (a.microParams 1 / (a.size 1 - 1))

theorem layers_of_built (ha : a.Ok) (hb : BuiltFrom a j c) (hd : a.dim = 2) : c.fe.cnt 2 = 1 := by
  obtain ⟨et, ct, hc⟩ := hb.eq
  have ef : c.fe = fe2 (a.size 0) (a.size 1) (mkCfg a j et).dx (mkCfg a j et).dy := by
    rw [hc]; exact if_pos hd
  rw [ef]
  rfl

/-- The centre of a part is below a grid line of the coarse grid iff the centre of the whole is. -/
theorem centre_parts {L : ℝ} (hL : 0 < L) {n n' m e k : Nat} (hn : 2 ≤ n) (hn' : 2 ≤ n') (hm : n' - 1 = m * (n - 1)) :
    centre L n' e < k * (L / (n - 1)) ↔ centre L n (e / m) < k * (L / (n - 1)) := by
  have hm0 : 0 < m := Nat.pos_of_ne_zero fun h => by rw [h, Nat.zero_mul] at hm; omega
  have c1 : ((n : ℝ) - 1) = ((n - 1 : Nat) : ℝ) := by rw [Nat.cast_sub (by omega)]; simp
  have c2 : ((n' : ℝ) - 1) = (m : ℝ) * ((n - 1 : Nat) : ℝ) := by
    have : ((n' - 1 : Nat) : ℝ) = (m : ℝ) * ((n - 1 : Nat) : ℝ) := by exact_mod_cast hm
    rw [← this, Nat.cast_sub (by omega)]; simp
  have p1 : (0 : ℝ) < ((n - 1 : Nat) : ℝ) := by exact_mod_cast (by omega : 0 < n - 1)
  have p2 : (0 : ℝ) < m := by exact_mod_cast hm0
  have p3 : 0 < L / ((n - 1 : Nat) : ℝ) := div_pos hL p1
  have half : ∀ x y : Nat, ((x : ℝ) + 1 / 2 < y ↔ x < y) := by
    intro x y
    constructor
    · intro h
      by_contra hxy
      have : (y : ℝ) ≤ x := by exact_mod_cast Nat.le_of_not_lt hxy
      linarith
    · intro h
      have : (x : ℝ) + 1 ≤ y := by exact_mod_cast h
      linarith
  unfold centre
  rw [c1, c2, mul_lt_mul_iff_left₀ p3, half]
  have e1 : ((e : ℝ) + 1 / 2) * (L / ((m : ℝ) * ((n - 1 : Nat) : ℝ)))
      = ((e : ℝ) + 1 / 2) / m * (L / ((n - 1 : Nat) : ℝ)) := by
    field_simp
  rw [e1, mul_lt_mul_iff_left₀ p3, div_lt_iff₀ p2]
  have e2 : (k : ℝ) * m = ((k * m : Nat) : ℝ) := by push_cast; ring
  rw [e2, half]
  exact (Nat.div_lt_iff_lt_mul hm0).symm

theorem finer_of_reach (ha : a.Ok) (hg : a.Geom) (he : a.Elastic) (ha' : a'.Ok) (he' : a'.Elastic)
    {m : Nat → Nat} (hm : FinerArgs m a a') (h : Reach env a j calls s) (h' : Reach env' a' j' calls' s') :
    FinerCell m s.obj.cfg s'.obj.cfg := by
  have hb := (reach_built ha h).1
  have hb' := (reach_built ha' h').1
  have h3 : a.dim ≤ 3 := by have := ha.dim; omega
  have hd : s.obj.cfg.dim = a.dim := (cnt_of_built ha hb (k := 0) (by have := ha.dim; omega)).1
  have hd' : s'.obj.cfg.dim = a'.dim := (cnt_of_built ha' hb' (k := 0) (by have := ha'.dim; omega)).1
  have hsz : ∀ k, k < a.dim → 2 ≤ a.size k := by
    intro k hk
    rcases (by omega : k = 0 ∨ k = 1 ∨ k = 2) with rfl | rfl | rfl
    · exact ha.nx
    · exact ha.ny
    · exact ha.nz (by omega)
  have hsz' : ∀ k, k < a.dim → 2 ≤ a'.size k := by
    intro k hk
    have := hm.dim
    rcases (by omega : k = 0 ∨ k = 1 ∨ k = 2) with rfl | rfl | rfl
    · exact ha'.nx
    · exact ha'.ny
    · exact ha'.nz (by omega)
  have hm0 : ∀ k, k < a.dim → (m k : ℝ) ≠ 0 := by
    intro k hk
    have h1 := hm.size k hk
    have h2 := hsz' k hk
    have : m k ≠ 0 := fun h0 => by rw [h0, Nat.zero_mul] at h1; omega
    exact_mod_cast this
  have hgrid : s.obj.cfg.fe.Refines s'.obj.cfg.fe m := by
    refine ⟨?_, fun k hk => ?_, fun k hk => ?_⟩
    · rw [s.obj.cfg.fe_dim hb.ok, s'.obj.cfg.fe_dim hb'.ok, hd, hd', hm.dim]
    · by_cases hkd : k < a.dim
      · rw [(cnt_of_built ha hb hkd).2.1, (cnt_of_built ha' hb' (by rw [hm.dim]; exact hkd)).2.1, hm.size k hkd]
      · have e2 : a.dim = 2 := by have := ha.dim; omega
        obtain rfl : k = 2 := by omega
        rw [layers_of_built ha hb e2, layers_of_built ha' hb' (hm.dim.trans e2), hm.flat e2]
    · rw [s.obj.cfg.fe_dim hb.ok, hd] at hk
      rw [(cnt_of_built ha hb hk).2.2, (cnt_of_built ha' hb' (by rw [hm.dim]; exact hk)).2.2, hm.size k hk,
        hm.length k (by omega)]
      have p1 : (((a.size k - 1 : Nat)) : ℝ) ≠ 0 := by
        have := hsz k hk
        exact_mod_cast (by omega : a.size k - 1 ≠ 0)
      have := hm0 k hk
      push_cast
      field_simp
  have key : ∀ e ∈ s'.obj.cfg.fe.elems,
      (s'.obj.cfg.matAt e).mu = (s.obj.cfg.matAt (Fe.parent m e)).mu ∧
      (s'.obj.cfg.matAt e).lambda = (s.obj.cfg.matAt (Fe.parent m e)).lambda := by
    intro e hmem'
    have hmem : Fe.parent m e ∈ s.obj.cfg.fe.elems := by
      rw [Fe.mem_elems] at hmem' ⊢
      have c0 : s'.obj.cfg.fe.nx - 1 = m 0 * (s.obj.cfg.fe.nx - 1) := hgrid.cnt 0 (by omega)
      have c1 : s'.obj.cfg.fe.ny - 1 = m 1 * (s.obj.cfg.fe.ny - 1) := hgrid.cnt 1 (by omega)
      have c2 : s'.obj.cfg.fe.layers = m 2 * s.obj.cfg.fe.layers := hgrid.cnt 2 (by omega)
      rw [c0, c1, c2] at hmem'
      exact ⟨Nat.div_lt_of_lt_mul hmem'.1, Nat.div_lt_of_lt_mul hmem'.2.1, Nat.div_lt_of_lt_mul hmem'.2.2⟩
    have hI := reach_elem ha h hmem
    have hI' := reach_elem ha' h' hmem'
    have hty : storedType s'.obj.cfg e.1 e.2.1 e.2.2
        = storedType s.obj.cfg (Fe.parent m e).1 (Fe.parent m e).2.1 (Fe.parent m e).2.2 := by
      rw [C48_layered ha hm.micro h hI, C48_layered ha' hm.micro' h' hI', hm.length 1 (by omega),
        hm.length 3 (by omega)]
      obtain ⟨k, hk⟩ := hm.line
      rw [hk]
      simp only [centre_parts hg.ly (hsz 1 (by have := ha.dim; omega)) (hsz' 1 (by have := ha.dim; omega))
        (hm.size 1 (by have := ha.dim; omega)) (e := e.2.1) (k := k)]
      rfl
    obtain ⟨t, h1, h2, -⟩ := reach_matAt ha h hmem
    obtain ⟨-, a1, a2⟩ := reach_moduli ha he h hmem h2
    obtain ⟨-, b1, b2⟩ := reach_moduli ha' he' h' hmem' (hty.trans h2)
    have e1 : shearOf a' t = shearOf a t := by
      unfold shearOf; rw [hm.E t h1, hm.nu t h1]
    have e2 : bulkOf a' t = bulkOf a t := by
      unfold bulkOf; rw [hm.E t h1, hm.nu t h1]
    have e3 : (s'.obj.cfg.matAt e).mu = (s.obj.cfg.matAt (Fe.parent m e)).mu := by rw [a1, b1, e1]
    refine ⟨e3, ?_⟩
    rw [e2, ← a2, e3] at b2
    linarith
  refine ⟨hgrid, fun hd3 => ?_, fun e hmem => (key e hmem).1, fun e hmem => (key e hmem).2⟩
  obtain ⟨et, ct, hc⟩ := hb.eq
  obtain ⟨et', ct', hc'⟩ := hb'.eq
  rw [hd] at hd3
  rw [hc, hc']
  show (if a'.dim = 2 then 0 else a'.microParams 2) = if a.dim = 2 then 0 else a.microParams 2
  rw [hm.dim, hm.length 2 (by omega)]

/-- C82 for objects obtained from the constructor: refine the grid of a layered cell, and its homogenised
stiffness does not rise. -/
theorem C82_constructed (ha : a.Ok) (hg : a.Geom) (he : a.Elastic) (ha' : a'.Ok) (hg' : a'.Geom) (he' : a'.Elastic)
    {m : Nat → Nat} (hm : FinerArgs m a a') (h : Reach env a j calls s) (h' : Reach env' a' j' calls' s')
    {C C' : Nat → Nat → ℝ} (hC : IsStiffness s.obj.cfg C) (hC' : IsStiffness s'.obj.cfg C') (x : Nat → ℝ) :
    ∑ v ∈ range s.obj.cfg.nvoi, ∑ i ∈ range s.obj.cfg.nvoi, x v * C' v i * x i
      ≤ ∑ v ∈ range s.obj.cfg.nvoi, ∑ i ∈ range s.obj.cfg.nvoi, x v * C v i * x i := by
  obtain ⟨hb, ho⟩ := reach_built ha h
  obtain ⟨hb', ho'⟩ := reach_built ha' h'
  exact C82_stiffness hb.ok (hb.geom hg) (hb.elastic he) hb'.ok (hb'.geom hg') (hb'.elastic he') ho.work ho'.work
    (finer_of_reach ha hg he ha' he' hm h h') hC hC' x

/-! ### Repeated refinement -/

/-- The same cell with every element divided into `2 ^ n` parts along each axis. -/
def halved (a : Args ℝ) (n : Nat) : Args ℝ := { a with size := fun k => 2 ^ n * (a.size k - 1) + 1 }

theorem halved_ok (ha : a.Ok) (n : Nat) : (halved a n).Ok := by
  have key : ∀ x : Nat, 2 ≤ x → 2 ≤ 2 ^ n * (x - 1) + 1 := fun x hx => by
    have := Nat.mul_le_mul (Nat.one_le_two_pow (n := n)) (by omega : 1 ≤ x - 1)
    omega
  exact ⟨ha.dim, ha.micro, key _ ha.nx, key _ ha.ny, fun h => key _ (ha.nz h)⟩

theorem halved_geom (hg : a.Geom) (n : Nat) : (halved a n).Geom := ⟨hg.lx, hg.ly, hg.lz⟩

theorem halved_elastic (he : a.Elastic) (n : Nat) : (halved a n).Elastic := ⟨he.E, he.lo, he.hi, he.ty⟩

theorem halved_finer (hmi : a.microType = 1) (ha : a.Ok)
    (hl : ∃ n : Nat, a.microParams 3 = n * (a.microParams 1 / (a.size 1 - 1))) {n n' : Nat} (hn : n ≤ n') :
    FinerArgs (fun k => if a.dim = 2 ∧ k = 2 then 1 else 2 ^ (n' - n)) (halved a n) (halved a n') := by
  refine ⟨rfl, fun k hk => ?_, fun h => if_pos ⟨h, rfl⟩, hmi, hmi, fun _ _ => rfl, fun _ _ => rfl, fun _ _ => rfl, ?_⟩
  · have hk : k < a.dim := hk
    show 2 ^ n' * (a.size k - 1) + 1 - 1 = (if a.dim = 2 ∧ k = 2 then 1 else 2 ^ (n' - n)) * (2 ^ n * (a.size k - 1) + 1 - 1)
    rw [if_neg (by omega), Nat.add_sub_cancel, Nat.add_sub_cancel, ← Nat.mul_assoc, ← pow_add]
    congr 2
    omega
  · obtain ⟨k, hk⟩ := hl
    refine ⟨k * 2 ^ n, ?_⟩
    show a.microParams 3 = _ * (a.microParams 1 / (((2 ^ n * (a.size 1 - 1) + 1 : Nat) : ℝ) - 1))
    have p : ((a.size 1 : ℝ) - 1) ≠ 0 := by
      have : (2 : ℝ) ≤ a.size 1 := by exact_mod_cast ha.ny
      linarith
    rw [hk]
    push_cast [show 1 ≤ a.size 1 from le_trans (by omega) ha.ny]
    rw [add_sub_cancel_right]
    field_simp

/-- Two materials in three dimensions, on 4 x 3 x 3 and on 7 x 5 x 5 nodes: constructed objects exist, the
second cell divides the elements of the first, equilibria exist for every macro strain, and the stiffnesses
are ordered. -/
example (eps : Nat → ℝ) : ∃ (s s' : ObjFiles ℝ) (m : Nat → Nat) (u u' : Buf ℝ) (C C' : Nat → Nat → ℝ),
    Reach exEnv (halved exArgs3 0) exJunk exCalls s ∧ Reach exEnv (halved exArgs3 1) exJunk exCalls s' ∧
    FinerArgs m (halved exArgs3 0) (halved exArgs3 1) ∧ FinerCell m s.obj.cfg s'.obj.cfg ∧
    Equilibrium s.obj.cfg { s.obj.work with u := u } eps ∧ Equilibrium s'.obj.cfg { s'.obj.work with u := u' } eps ∧
    IsStiffness s.obj.cfg C ∧ IsStiffness s'.obj.cfg C' ∧
    ∑ v ∈ range s.obj.cfg.nvoi, ∑ i ∈ range s.obj.cfg.nvoi, eps v * C' v i * eps i
      ≤ ∑ v ∈ range s.obj.cfg.nvoi, ∑ i ∈ range s.obj.cfg.nvoi, eps v * C v i * eps i := by
  have o := fun n => halved_ok exArgs3_ok n
  have g := fun n => halved_geom exArgs3_geom n
  have l := fun n => halved_elastic exArgs3_elastic n
  obtain ⟨s, hs⟩ := reach_exists exEnv_quick (o 0) exJunk exCalls
  obtain ⟨s', hs'⟩ := reach_exists exEnv_quick (o 1) exJunk exCalls
  obtain ⟨hb, ho⟩ := reach_built (o 0) hs
  obtain ⟨hb', ho'⟩ := reach_built (o 1) hs'
  have hm := halved_finer (a := exArgs3) rfl exArgs3_ok ⟨1, by norm_num [exArgs3]⟩ (Nat.zero_le 1)
  obtain ⟨C, hC⟩ := (stiffness_unique hb.ok (hb.geom (g 0)) (hb.elastic (l 0)) ho.work).1
  obtain ⟨C', hC'⟩ := (stiffness_unique hb'.ok (hb'.geom (g 1)) (hb'.elastic (l 1)) ho'.work).1
  obtain ⟨u, hu⟩ := equilibrium_exists hb.ok (hb.geom (g 0)) (hb.elastic (l 0)) ho.work eps
  obtain ⟨u', hu'⟩ := equilibrium_exists hb'.ok (hb'.geom (g 1)) (hb'.elastic (l 1)) ho'.work eps
  exact ⟨s, s', _, u, u', C, C', hs, hs', hm, finer_of_reach (o 0) (g 0) (l 0) (o 1) (l 1) hm hs hs', hu, hu', hC, hC',
    C82_constructed (o 0) (g 0) (l 0) (o 1) (g 1) (l 1) hm hs hs' hC hC' eps⟩

/-- Value of the quadratic form of a matrix. -/
def form (n : Nat) (C : Nat → Nat → ℝ) (x : Nat → ℝ) : ℝ := ∑ v ∈ range n, ∑ i ∈ range n, x v * C v i * x i

theorem form_entry {n : Nat} {C : Nat → Nat → ℝ} (hs : ∀ i j, i < n → j < n → C i j = C j i) {v i : Nat} (hv : v < n)
    (hi : i < n) : C v i = (form n C (fun k => (if k = v then 1 else 0) + if k = i then 1 else 0)
      - form n C (fun k => if k = v then 1 else 0) - form n C (fun k => if k = i then 1 else 0)) / 2 := by
  have hb : ∀ p q : Nat, p < n → q < n → ∑ k ∈ range n, ∑ l ∈ range n,
      (if k = p then (1 : ℝ) else 0) * C k l * (if l = q then 1 else 0) = C p q := by
    intro p q hp hq
    simp [hp, hq]
  have e1 : form n C (fun k => (if k = v then 1 else 0) + if k = i then 1 else 0)
      = C v v + C v i + C i v + C i i := by
    rw [← hb v v hv hv, ← hb v i hv hi, ← hb i v hi hv, ← hb i i hi hi]
    unfold form
    simp only [← sum_add_distrib]
    exact sum_congr rfl fun k _ => sum_congr rfl fun l _ => by ring
  have e2 : form n C (fun k => if k = v then 1 else 0) = C v v := hb v v hv hv
  have e3 : form n C (fun k => if k = i then 1 else 0) = C i i := hb i i hi hi
  rw [e1, e2, e3, hs i v hi hv]
  ring

theorem integral_smul' {F : Fe} (r : ℝ) (f : Nat × Nat × Nat → Nat → ℝ) :
    F.integral (fun e gp => r * f e gp) = r * F.integral f := by
  unfold Fe.integral
  simp only [mul_sum, mul_assoc]

/-- A lower bound of the stiffness that does not depend on the grid. -/
theorem stiffness_lower (hc : c.Ok) (hg : c.Geom) (he : c.Elastic) (hw : w.Ok c) {b : ℝ} (hb : 0 ≤ b)
    (h1 : ∀ e ∈ c.fe.elems, b ≤ (c.matAt e).mu)
    (h2 : ∀ e ∈ c.fe.elems, 2 * b ≤ 3 * (c.matAt e).lambda + 2 * (c.matAt e).mu) {C : Nat → Nat → ℝ}
    (hC : IsStiffness c C) (x : Nat → ℝ) : c.thick * b * ∑ v ∈ range c.nvoi, x v ^ 2 ≤ form c.nvoi C x := by
  obtain ⟨u, r, k1, k2, k3⟩ := stiffness_pair hc hg he hw hC x
  obtain ⟨g1, g2, r', g3, g4⟩ := equil_ave hc hg he k1
  rw [k2] at g3; cases g3
  have hF := c.good hc hg
  rw [form, ← k3, pair_thick r.ave _ x _ g4, mul_assoc]
  refine mul_le_mul_of_nonneg_left ?_ (thick_pos hc hg).le
  refine le_of_mul_le_mul_left ?_ (Fe.vol_pos hF)
  rw [Fe.macro_energy hF g1 g2]
  set W : Nat → ℝ := u.val
  have hpt : ∀ e ∈ c.fe.elems, ∀ gp, gp < c.fe.npe →
      b * (2 * ∑ v ∈ range c.nvoi, c.fe.strain W e gp v * x v - ∑ v ∈ range c.nvoi, x v ^ 2)
        ≤ c.fe.pair (c.fe.stress c.law W e gp) (c.fe.strain W e gp) := by
    intro e hm gp _
    have h3 := iso_energy hc.dim (nvoi_eq c) 0 b (c.matAt e).lambda (c.matAt e).mu (h1 e hm)
      (by have := h2 e hm; linarith) (c.fe.strain W e gp)
    have h4 : c.fe.pair (c.fe.stress c.law W e gp) (c.fe.strain W e gp)
        = ∑ v ∈ range c.nvoi, isoLaw c.dim (c.matAt e).lambda (c.matAt e).mu (c.fe.strain W e gp) v
          * c.fe.strain W e gp v := by
      unfold Fe.pair Fe.stress
      rw [c.fe_nvoi]
      rfl
    rw [h4]
    refine le_trans ?_ h3
    generalize c.fe.strain W e gp = y
    have h5 : b * ∑ v ∈ range c.nvoi, y v ^ 2 ≤ ∑ v ∈ range c.nvoi, isoLaw c.dim 0 b y v * y v := by
      have hn := nvoi_eq c
      rcases hc.dim with hd | hd <;> rw [hd] at hn ⊢ <;> simp at hn <;> rw [hn] <;>
        simp [isoLaw, planeStrain, hooke, inPlane, tr, sum_range_succ]
      · nlinarith [mul_nonneg hb (sq_nonneg (y 0)), mul_nonneg hb (sq_nonneg (y 1))]
      · nlinarith [mul_nonneg hb (sq_nonneg (y 0)), mul_nonneg hb (sq_nonneg (y 1)), mul_nonneg hb (sq_nonneg (y 2))]
    refine le_trans (mul_le_mul_of_nonneg_left ?_ hb) h5
    rw [mul_sum, ← sum_sub_distrib]
    exact sum_le_sum fun v _ => by nlinarith [sq_nonneg (y v - x v)]
  have h6 := Fe.integral_mono hF hpt
  refine le_trans (le_of_eq ?_) h6
  have h7 : c.fe.integral (fun e gp => ∑ v ∈ range c.nvoi, c.fe.strain W e gp v * x v)
      = c.fe.vol * ∑ v ∈ range c.nvoi, x v ^ 2 := by
    rw [Fe.integral_sum, mul_sum]
    refine sum_congr rfl fun v hv => ?_
    have h8 := Fe.integral_strain hF g1 (v := v) (by rw [c.fe_nvoi]; exact mem_range.mp hv)
    have h9 : c.fe.integral (fun e gp => c.fe.strain W e gp v * x v) = x v * c.fe.integral fun e gp => c.fe.strain W e gp v := by
      rw [← integral_smul']
      exact Fe.integral_congr fun e _ gp _ => by ring
    rw [h9, h8]
    ring
  have h10 : c.fe.integral (fun e gp => b * (2 * ∑ v ∈ range c.nvoi, c.fe.strain W e gp v * x v - ∑ v ∈ range c.nvoi, x v ^ 2))
      = b * (2 * c.fe.integral (fun e gp => ∑ v ∈ range c.nvoi, c.fe.strain W e gp v * x v)
        - c.fe.integral fun _ _ => ∑ v ∈ range c.nvoi, x v ^ 2) := by
    rw [integral_smul', Fe.integral_sub, integral_smul']
  rw [h10, h7, Fe.integral_const hF]
  ring

/-- Number of components of a strain. -/
def comps (a : Args ℝ) : Nat := if a.dim = 2 then 3 else 6

/-- C82 in the limit: divide the elements of a layered cell again and again, and the homogenised
stiffness converges to a symmetric positive definite matrix, from above. -/
theorem C82_limit (ha : a.Ok) (hg : a.Geom) (he : a.Elastic) (hmi : a.microType = 1)
    (hl : ∃ n : Nat, a.microParams 3 = n * (a.microParams 1 / (a.size 1 - 1)))
    {env : Nat → Env ℝ} {j : Nat → Junk ℝ} {calls : Nat → List (Call ℝ)} {s : Nat → ObjFiles ℝ}
    (h : ∀ n, Reach (env n) (halved a n) (j n) (calls n) (s n)) {C : Nat → Nat → Nat → ℝ}
    (hC : ∀ n, IsStiffness (s n).obj.cfg (C n)) :
    ∃ D : Nat → Nat → ℝ,
      (∀ v i, v < comps a → i < comps a → Tendsto (fun n => C n v i) atTop (nhds (D v i))) ∧
      (∀ v i, v < comps a → i < comps a → D v i = D i v) ∧
      (∀ x : Nat → ℝ, (∃ v, v < comps a ∧ x v ≠ 0) →
        0 < ∑ v ∈ range (comps a), ∑ i ∈ range (comps a), x v * D v i * x i) ∧
      ∀ n (x : Nat → ℝ), ∑ v ∈ range (comps a), ∑ i ∈ range (comps a), x v * D v i * x i
        ≤ ∑ v ∈ range (comps a), ∑ i ∈ range (comps a), x v * C n v i * x i := by
  have hb : ∀ n, BuiltFrom (halved a n) (j n) (s n).obj.cfg := fun n => (reach_built (halved_ok ha n) (h n)).1
  have hnv : ∀ n, (s n).obj.cfg.nvoi = comps a := by
    intro n
    obtain ⟨et, ct, hc⟩ := (hb n).eq
    rw [hc]
    rfl
  have hw : ∀ n, (s n).obj.work.Ok (s n).obj.cfg := fun n => (reach_built (halved_ok ha n) (h n)).2.work
  have hfin : ∀ n n', n ≤ n' → FinerCell _ (s n).obj.cfg (s n').obj.cfg := fun n n' hn =>
    finer_of_reach (halved_ok ha n) (halved_geom hg n) (halved_elastic he n) (halved_ok ha n') (halved_elastic he n')
      (halved_finer hmi ha hl hn) (h n) (h n')
  have hanti : ∀ x, Antitone fun n => form (comps a) (C n) x := by
    intro x n n' hn
    have := C82_stiffness (hb n).ok ((hb n).geom (halved_geom hg n)) ((hb n).elastic (halved_elastic he n))
      (hb n').ok ((hb n').geom (halved_geom hg n')) ((hb n').elastic (halved_elastic he n')) (hw n) (hw n')
      (hfin n n' hn) (hC n) (hC n') x
    rw [hnv n] at this
    exact this
  obtain ⟨b, hb0, hb1⟩ : ∃ b : ℝ, 0 < b ∧ ∀ i, i < 2 → b ≤ shearOf a i ∧ 2 * b ≤ 3 * bulkOf a i := by
    have hp : ∀ i, i < 2 → 0 < shearOf a i ∧ 0 < bulkOf a i := by
      intro i hi
      have p1 : 0 < a.params (10 * i) := by rw [Nat.mul_comm]; exact he.E i hi
      have p2 : -1 < a.params (10 * i + 1) := by rw [Nat.mul_comm]; exact he.lo i hi
      have p3 : a.params (10 * i + 1) < 1 / 2 := by rw [Nat.mul_comm]; exact he.hi i hi
      unfold shearOf bulkOf
      exact ⟨div_pos p1 (by linarith), div_pos p1 (by linarith)⟩
    refine ⟨min (min (shearOf a 0) (bulkOf a 0)) (min (shearOf a 1) (bulkOf a 1)), ?_, ?_⟩
    · exact lt_min (lt_min (hp 0 (by omega)).1 (hp 0 (by omega)).2) (lt_min (hp 1 (by omega)).1 (hp 1 (by omega)).2)
    · intro i hi
      have q1 := min_le_left (min (shearOf a 0) (bulkOf a 0)) (min (shearOf a 1) (bulkOf a 1))
      have q2 := min_le_right (min (shearOf a 0) (bulkOf a 0)) (min (shearOf a 1) (bulkOf a 1))
      have r1 := min_le_left (shearOf a 0) (bulkOf a 0)
      have r2 := min_le_right (shearOf a 0) (bulkOf a 0)
      have r3 := min_le_left (shearOf a 1) (bulkOf a 1)
      have r4 := min_le_right (shearOf a 1) (bulkOf a 1)
      have := hp i hi
      rcases (by omega : i = 0 ∨ i = 1) with rfl | rfl <;> constructor <;> linarith
  have hlow : ∀ n x, (s 0).obj.cfg.thick * b * ∑ v ∈ range (comps a), x v ^ 2 ≤ form (comps a) (C n) x := by
    intro n x
    have ht := ((hfin 0 n (Nat.zero_le n)).eqs (hb 0).ok (hb n).ok).2.2
    have key : ∀ e ∈ (s n).obj.cfg.fe.elems, b ≤ ((s n).obj.cfg.matAt e).mu ∧
        2 * b ≤ 3 * ((s n).obj.cfg.matAt e).lambda + 2 * ((s n).obj.cfg.matAt e).mu := by
      intro e hm
      obtain ⟨t, h1, h2, -⟩ := reach_matAt (halved_ok ha n) (h n) hm
      obtain ⟨-, a1, a2⟩ := reach_moduli (halved_ok ha n) (halved_elastic he n) (h n) hm h2
      have a1 : ((s n).obj.cfg.matAt e).mu = shearOf a t := a1
      have a2 : ((s n).obj.cfg.matAt e).lambda + 2 / 3 * ((s n).obj.cfg.matAt e).mu = bulkOf a t := a2
      have := hb1 t h1
      exact ⟨by linarith, by linarith⟩
    have := stiffness_lower (hb n).ok ((hb n).geom (halved_geom hg n)) ((hb n).elastic (halved_elastic he n)) (hw n)
      hb0.le (fun e hm => (key e hm).1) (fun e hm => (key e hm).2) (hC n) x
    rw [hnv n, ht] at this
    exact this
  have ht0 : 0 < (s 0).obj.cfg.thick := thick_pos (hb 0).ok ((hb 0).geom (halved_geom hg 0))
  have hlim : ∀ x, ∃ l, Tendsto (fun n => form (comps a) (C n) x) atTop (nhds l) := fun x =>
    ⟨_, tendsto_atTop_ciInf (hanti x) ⟨0, by
      rintro _ ⟨n, rfl⟩
      exact le_trans (mul_nonneg (mul_pos ht0 hb0).le (sum_nonneg fun v _ => sq_nonneg _)) (hlow n x)⟩⟩
  choose q hq using hlim
  have hsym : ∀ n i k, i < comps a → k < comps a → C n i k = C n k i := by
    intro n i k hi hk
    obtain ⟨-, C0, g1, -, g2⟩ := C30_stiffness (hb n).ok ((hb n).geom (halved_geom hg n)) ((hb n).elastic (halved_elastic he n))
    have hu := (stiffness_unique (hb n).ok ((hb n).geom (halved_geom hg n)) ((hb n).elastic (halved_elastic he n)) (hw n)).2.1
      (C n) C0 (hC n) g2
    rw [hnv n] at hu g1
    rw [hu i k hi hk, hu k i hk hi, g1 i k hi hk]
  have hent : ∀ v i, ∃ l, v < comps a → i < comps a → Tendsto (fun n => C n v i) atTop (nhds l) := by
    intro v i
    refine ⟨(q (fun k => (if k = v then 1 else 0) + if k = i then 1 else 0) - q (fun k => if k = v then 1 else 0)
      - q (fun k => if k = i then 1 else 0)) / 2, fun hv hi => ?_⟩
    have := (((hq (fun k => (if k = v then 1 else 0) + if k = i then 1 else 0)).sub
      (hq fun k => if k = v then 1 else 0)).sub (hq fun k => if k = i then 1 else 0)).div_const 2
    refine this.congr fun n => ?_
    rw [form_entry (hsym n) hv hi]
  choose D hD using hent
  have hform : ∀ x, Tendsto (fun n => form (comps a) (C n) x) atTop (nhds (form (comps a) D x)) := by
    intro x
    unfold form
    refine tendsto_finset_sum _ fun v hv => tendsto_finset_sum _ fun i hi => ?_
    exact ((hD v i (mem_range.mp hv) (mem_range.mp hi)).const_mul _).mul_const _
  refine ⟨D, fun v i hv hi => hD v i hv hi, fun v i hv hi => ?_, fun x ⟨v, hv, hx⟩ => ?_, fun n x => ?_⟩
  · refine tendsto_nhds_unique (hD v i hv hi) ((hD i v hi hv).congr fun n => ?_)
    exact hsym n i v hi hv
  · have h1 : (s 0).obj.cfg.thick * b * ∑ v ∈ range (comps a), x v ^ 2 ≤ form (comps a) D x :=
      ge_of_tendsto' (hform x) fun n => hlow n x
    refine lt_of_lt_of_le (mul_pos (mul_pos ht0 hb0) ?_) h1
    exact sum_pos' (fun v _ => sq_nonneg _) ⟨v, mem_range.mpr hv, by positivity⟩
  · exact (hanti x).le_of_tendsto (hform x) n

/-- Two materials in three dimensions, layers that end at a grid line: constructed objects exist, and the
stiffness converges. -/
example : ∃ (s : Nat → ObjFiles ℝ) (C : Nat → Nat → Nat → ℝ) (D : Nat → Nat → ℝ),
    (∀ n, Reach exEnv (halved exArgs3 n) exJunk exCalls (s n) ∧ IsStiffness (s n).obj.cfg (C n)) ∧
    ∀ v i, v < 6 → i < 6 → Tendsto (fun n => C n v i) atTop (nhds (D v i)) := by
  have h : ∀ n, ∃ s, Reach exEnv (halved exArgs3 n) exJunk exCalls s := fun n =>
    reach_exists exEnv_quick (halved_ok exArgs3_ok n) _ _
  choose s hs using h
  have hC : ∀ n, ∃ C, IsStiffness (s n).obj.cfg C := fun n => by
    obtain ⟨hb, ho⟩ := reach_built (halved_ok exArgs3_ok n) (hs n)
    exact (stiffness_unique hb.ok (hb.geom (halved_geom exArgs3_geom n)) (hb.elastic (halved_elastic exArgs3_elastic n))
      ho.work).1
  choose C hC using hC
  obtain ⟨D, hD, -⟩ := C82_limit exArgs3_ok exArgs3_geom exArgs3_elastic rfl ⟨1, by norm_num [exArgs3]⟩ hs hC
  exact ⟨s, C, D, fun n => ⟨hs n, hC n⟩, fun v i hv hi => hD v i hv hi⟩

end Verif.Props
