import Verif.Lemmas.OutputRun
import Verif.Lemmas.Built
import Verif.Lemmas.Plastic
import Verif.Props.State

/-!
# C50: the VTU file
-/

namespace Verif.Props
open Verif Spec

section
variable {α : Type} [Scalar α]

/-- Number of layers of elements: one in two dimensions. -/
def layers (c : Cfg α) : Nat := if c.dim = 2 then 1 else c.nz - 1

/-- Corner `q` of element `(ex, ey, ez)`, in the order VTK prescribes for quadrilaterals and
hexahedra. -/
def corner (c : Cfg α) (ex ey ez q : Nat) : Nat :=
  if c.dim = 2 then enode2 c.nx ex ey q else enode3 c.nx c.ny ex ey ez q

/-- The file `ts` describes the grid `c` and the data `w`. -/
structure VtuOf (c : Cfg α) (w : Work α) (ts : List (Tok α)) : Prop where
  /-- the announced numbers of points and cells -/
  count : announced ts = [.int c.nn, .int c.nelem]
  /-- three coordinates per node, in the order of the nodes -/
  points : (dataOf hPosition ts).length = c.nn * 3
  point : ∀ i j k, i < c.nx → j < c.ny → k < c.nz →
    (dataOf hPosition ts)[node3 c.nx c.ny i j k * 3]? = some (.num ((i : α) * c.dx)) ∧
    (dataOf hPosition ts)[node3 c.nx c.ny i j k * 3 + 1]? = some (.num ((j : α) * c.dy)) ∧
    (dataOf hPosition ts)[node3 c.nx c.ny i j k * 3 + 2]?
      = some (if c.dim = 2 then .str "0.0" else .num ((k : α) * c.dz))
  /-- the corners of each element, in the order of the elements; they are listed points -/
  cells : (dataOf hConnectivity ts).length = c.nelem * c.npe
  cell : ∀ ex ey ez q, ex < c.nx - 1 → ey < c.ny - 1 → ez < layers c → q < c.npe →
    (dataOf hConnectivity ts)[gloElem3D c.nx c.ny ex ey ez * c.npe + q]?
      = some (.int (corner c ex ey ez q : Nat)) ∧ corner c ex ey ez q < c.nn
  /-- the offsets are the running totals of the cell sizes -/
  offsets : (dataOf hOffsets ts).length = c.nelem
  offset : ∀ e, e < c.nelem → (dataOf hOffsets ts)[e]? = some (.int ((e + 1) * c.npe : Nat))
  /-- quadrilaterals (9) or hexahedra (12) -/
  types : dataOf hTypes ts = List.replicate c.nelem (.int (if c.dim = 2 then 9 else 12))
  /-- displacement and right hand side per node, three components -/
  displs : (dataOf hDispl ts).length = c.nn * 3
  displ : ∀ n r, n < c.nn → r < 3 → (dataOf hDispl ts)[n * 3 + r]?
    = some (if r < c.dim then .num (w.u.val (n * c.dim + r)) else .str "0.0")
  bs : (dataOf hB ts).length = c.nn * 3
  b : ∀ n r, n < c.nn → r < 3 → (dataOf hB ts)[n * 3 + r]?
    = some (if r < c.dim then .num (w.b.val (n * c.dim + r)) else .str "0.0")
  /-- strain and stress per element -/
  strains : (dataOf hStrain ts).length = c.nelem * c.nvoi
  strain : ∀ e v, e < c.nelem → v < c.nvoi → (dataOf hStrain ts)[e * c.nvoi + v]?
    = some (.num (w.elemStrain.val (e * c.nvoi + v)))
  stresses : (dataOf hStress ts).length = c.nelem * c.nvoi
  stress : ∀ e v, e < c.nelem → v < c.nvoi → (dataOf hStress ts)[e * c.nvoi + v]?
    = some (.num (w.elemStress.val (e * c.nvoi + v)))
  /-- type, plastic strain and hardening per element -/
  elemTypes : (dataOf hElemType ts).length = c.nelem
  elemType : ∀ e, e < c.nelem → (dataOf hElemType ts)[e]? = some (.int (c.elemType.val e))
  plasticity : (dataOf hPlasticity ts).length = c.nelem
  hardening : (dataOf hHardening ts).length = c.nelem

theorem singles_length {n : Nat} {f : Nat → Tok α} : (emitP n fun e => [f e]).length = n := by
  rw [emitP_length (L := 1) fun _ _ => rfl, Nat.mul_one]

theorem singles_get {n e : Nat} {f : Nat → Tok α} (he : e < n) :
    (emitP n fun e => [f e])[e]? = some (f e) := by
  have := emitP_get (n := n) (L := 1) (f := fun e => [f e]) (fun _ _ => rfl) he (r := 0) (by omega)
  simpa using this

variable {c : Cfg α} {w : Work α} {ts : List (Tok α)}

theorem nodal_get (hc : c.Ok) (p : Nat → α) :
    ((nodalP c p).filter fun t => !isSep t).length = c.nn * 3 ∧
    ∀ n r, n < c.nn → r < 3 → ((nodalP c p).filter fun t => !isSep t)[n * 3 + r]?
      = some (if r < c.dim then .num (p (n * c.dim + r)) else .str "0.0") := by
  unfold nodalP
  rw [emitP_filter]
  rcases hc.dim with hd | hd
  · simp only [hd, if_true]
    refine ⟨emitP_length (L := 3) fun _ _ => rfl, fun n r hn hr => ?_⟩
    rw [emitP_get (L := 3) (fun _ _ => rfl) hn hr]
    interval_cases r <;> rfl
  · simp only [hd, if_true, show ¬ (3 : Nat) = 2 by decide, if_false]
    refine ⟨emitP_length (L := 3) fun _ _ => rfl, fun n r hn hr => ?_⟩
    rw [emitP_get (L := 3) (fun _ _ => rfl) hn hr]
    interval_cases r <;> rfl

theorem elem_get (p : Nat → α) :
    ((elemP c p).filter fun t => !isSep t).length = c.nelem * c.nvoi ∧
    ∀ e v, e < c.nelem → v < c.nvoi → ((elemP c p).filter fun t => !isSep t)[e * c.nvoi + v]?
      = some (.num (p (e * c.nvoi + v))) := by
  unfold elemP
  rw [emitP_filter]
  have e1 : ∀ e, (((emitP c.nvoi fun v => [Tok.num (p (e * c.nvoi + v)), .sp]) ++ [Tok.endl]).filter
      fun t => !isSep t) = (emitP c.nvoi fun v => [Tok.num (p (e * c.nvoi + v))]) := by
    intro e
    rw [List.filter_append, emitP_filter]
    exact List.append_nil _
  simp only [e1]
  refine ⟨emitP_length fun _ _ => singles_length, fun e v he hv => ?_⟩
  rw [emitP_get (fun _ _ => singles_length) he hv, singles_get hv]

theorem points_get (hc : c.Ok) :
    ((vtuPoints c).filter fun t => !isSep t).length = c.nn * 3 ∧
    ∀ i j k r, i < c.nx → j < c.ny → k < c.nz → r < 3 →
      ((vtuPoints c).filter fun t => !isSep t)[node3 c.nx c.ny i j k * 3 + r]?
        = some (if r = 0 then .num ((i : α) * c.dx) else if r = 1 then .num ((j : α) * c.dy)
          else if c.dim = 2 then .str "0.0" else .num ((k : α) * c.dz)) := by
  unfold vtuPoints
  rcases hc.dim with hd | hd
  · simp only [hd, if_true, emitP_filter]
    have l2 : ∀ j, (emitP c.nx fun i => List.filter (fun t => !isSep t)
        [Tok.num (((i : Nat) : α) * c.dx), .sp, .num (((j : Nat) : α) * c.dy), .sp, .str "0.0",
          .endl]).length
        = c.nx * 3 := fun j => emitP_length (L := 3) fun _ _ => rfl
    refine ⟨?_, fun i j k r hi hj hk hr => ?_⟩
    · rw [emitP_length fun j _ => l2 j, hc.nn2 hd]; ring
    · have hk0 : k = 0 := by have := hc.nz2 hd; omega
      subst hk0
      rw [show node3 c.nx c.ny i j 0 * 3 + r = j * (c.nx * 3) + (i * 3 + r) by unfold node3; ring,
        emitP_get (fun j _ => l2 j) hj (mul_add_lt hi hr), emitP_get (L := 3) (fun _ _ => rfl) hi hr]
      interval_cases r <;> rfl
  · simp only [hd, if_true, show ¬ (3 : Nat) = 2 by decide, if_false, emitP_filter]
    have l2 : ∀ k j, (emitP c.nx fun i => List.filter (fun t => !isSep t)
        [Tok.num (((i : Nat) : α) * c.dx), .sp, .num (((j : Nat) : α) * c.dy), .sp,
          .num (((k : Nat) : α) * c.dz), .endl]).length
        = c.nx * 3 := fun k j => emitP_length (L := 3) fun _ _ => rfl
    have l3 : ∀ k, (emitP c.ny fun j => emitP c.nx fun i => List.filter (fun t => !isSep t)
        [Tok.num (((i : Nat) : α) * c.dx), .sp, .num (((j : Nat) : α) * c.dy), .sp,
          .num (((k : Nat) : α) * c.dz), .endl]).length
        = c.ny * (c.nx * 3) := fun k => emitP_length fun j _ => l2 k j
    refine ⟨?_, fun i j k r hi hj hk hr => ?_⟩
    · rw [emitP_length fun k _ => l3 k]; unfold Cfg.nn; ring
    · rw [show node3 c.nx c.ny i j k * 3 + r
          = k * (c.ny * (c.nx * 3)) + (j * (c.nx * 3) + (i * 3 + r)) by unfold node3; ring,
        emitP_get (fun k _ => l3 k) hk (mul_add_lt hj (mul_add_lt hi hr)),
        emitP_get (fun j _ => l2 k j) hj (mul_add_lt hi hr), emitP_get (L := 3) (fun _ _ => rfl) hi hr]
      interval_cases r <;> rfl

theorem vtuNode2D_enode {nx ex ey q : Nat} (hq : q < 4) : vtuNode2D nx ex ey q = enode2 nx ex ey q := by
  unfold vtuNode2D enode2 node2 cornerX cornerY
  interval_cases q <;> simp <;> ring

theorem vtuNode3D_enode {nx ny ex ey ez q : Nat} (hq : q < 8) :
    vtuNode3D nx ny ex ey ez q = enode3 nx ny ex ey ez q := by
  unfold vtuNode3D enode3 node3 cornerX cornerY cornerZ
  interval_cases q <;> simp <;> ring

theorem cells_get (hc : c.Ok) :
    ((vtuCells c).filter fun t => !isSep t).length = c.nelem * c.npe ∧
    ∀ ex ey ez q, ex < c.nx - 1 → ey < c.ny - 1 → ez < layers c → q < c.npe →
      ((vtuCells c).filter fun t => !isSep t)[gloElem3D c.nx c.ny ex ey ez * c.npe + q]?
        = some (.int (corner c ex ey ez q : Nat)) := by
  have e1 : ∀ (n : Nat) (f : Nat → Nat), (((emitP n fun k => [(.int (f k : Nat) : Tok α), .sp]) ++ [Tok.endl]).filter
      fun t => !isSep t) = (emitP n fun k => [(.int (f k : Nat) : Tok α)]) := by
    intro n f
    rw [List.filter_append, emitP_filter]
    exact List.append_nil _
  unfold vtuCells corner layers
  rcases hc.dim with hd | hd
  · have hp : c.npe = 4 := by unfold Cfg.npe; rw [if_pos hd]
    have hn : c.nelem = (c.ny - 1) * (c.nx - 1) := by unfold Cfg.nelem; rw [if_pos hd]; ring
    simp only [hd, if_true, emitP_filter, e1, hp, hn]
    have l2 : ∀ ey, (emitP (c.nx - 1) fun ex => emitP 4 fun k =>
        [(.int (vtuNode2D c.nx ex ey k : Nat) : Tok α)]).length = (c.nx - 1) * 4 :=
      fun ey => emitP_length fun _ _ => singles_length
    refine ⟨?_, fun ex ey ez q hx hy hz hq => ?_⟩
    · rw [emitP_length fun ey _ => l2 ey]; ring
    · have hz0 : ez = 0 := by omega
      subst hz0
      rw [show gloElem3D c.nx c.ny ex ey 0 * 4 + q = ey * ((c.nx - 1) * 4) + (ex * 4 + q) by
          unfold gloElem3D; ring,
        emitP_get (fun ey _ => l2 ey) hy (mul_add_lt hx hq),
        emitP_get (fun _ _ => singles_length) hx hq, singles_get hq, vtuNode2D_enode hq]
  · have hp : c.npe = 8 := by unfold Cfg.npe; rw [if_neg (by omega)]
    have hn : c.nelem = (c.nz - 1) * ((c.ny - 1) * (c.nx - 1)) := by
      unfold Cfg.nelem; rw [if_neg (by omega)]; ring
    simp only [hd, if_true, show ¬ (3 : Nat) = 2 by decide, if_false, emitP_filter, e1, hp, hn]
    have l2 : ∀ ez ey, (emitP (c.nx - 1) fun ex => emitP 8 fun k =>
        [(.int (vtuNode3D c.nx c.ny ex ey ez k : Nat) : Tok α)]).length = (c.nx - 1) * 8 :=
      fun ez ey => emitP_length fun _ _ => singles_length
    have l3 : ∀ ez, (emitP (c.ny - 1) fun ey => emitP (c.nx - 1) fun ex => emitP 8 fun k =>
        [(.int (vtuNode3D c.nx c.ny ex ey ez k : Nat) : Tok α)]).length
        = (c.ny - 1) * ((c.nx - 1) * 8) :=
      fun ez => emitP_length fun ey _ => l2 ez ey
    refine ⟨?_, fun ex ey ez q hx hy hz hq => ?_⟩
    · rw [emitP_length fun ez _ => l3 ez]; ring
    · rw [show gloElem3D c.nx c.ny ex ey ez * 8 + q
          = ez * ((c.ny - 1) * ((c.nx - 1) * 8)) + (ey * ((c.nx - 1) * 8) + (ex * 8 + q)) by
          unfold gloElem3D; ring,
        emitP_get (fun ez _ => l3 ez) hz (mul_add_lt hy (mul_add_lt hx hq)),
        emitP_get (fun ey _ => l2 ez ey) hy (mul_add_lt hx hq),
        emitP_get (fun _ _ => singles_length) hx hq, singles_get hq, vtuNode3D_enode hq]

theorem corner_lt (hc : c.Ok) {ex ey ez q : Nat} (hx : ex < c.nx - 1) (hy : ey < c.ny - 1)
    (hz : ez < layers c) (hq : q < c.npe) : corner c ex ey ez q < c.nn := by
  have hX : cornerX q ≤ 1 := by unfold cornerX; split <;> omega
  have hY : cornerY q ≤ 1 := by unfold cornerY; split <;> omega
  unfold corner layers at *
  rcases hc.dim with hd | hd
  · rw [if_pos hd, hc.nn2 hd]
    unfold enode2 node2
    have h : (ey + cornerY q) * c.nx + (ex + cornerX q) < c.ny * c.nx :=
      mul_add_lt (by omega) (by omega)
    calc _ = (ey + cornerY q) * c.nx + (ex + cornerX q) := by ring
      _ < _ := h
      _ = _ := by ring
  · rw [if_neg (by omega)] at hz ⊢
    have hZ : cornerZ q ≤ 1 := by
      unfold cornerZ; unfold Cfg.npe at hq; rw [if_neg (by omega)] at hq; omega
    exact node3_lt (by omega) (by omega) (by omega)

theorem offsets_get :
    ((vtuOffsets c).filter fun t => !isSep t).length = c.nelem ∧
    ∀ e, e < c.nelem → ((vtuOffsets c).filter fun t => !isSep t)[e]?
      = some (.int ((e + 1) * c.npe : Nat)) := by
  rw [vtuOffsets_eq, emitP_filter]
  exact ⟨singles_length, fun e he => singles_get he⟩

theorem sections_vtu (hc : c.Ok) (h : Sections c w ts) : VtuOf c w ts where
  count := h.count
  points := by rw [h.points]; exact (points_get hc).1
  point := fun i j k hi hj hk => by
    rw [h.points]
    refine ⟨?_, ?_, ?_⟩
    · rw [← Nat.add_zero (_ * 3), (points_get hc).2 i j k 0 hi hj hk (by omega)]; rfl
    · rw [(points_get hc).2 i j k 1 hi hj hk (by omega)]; rfl
    · rw [(points_get hc).2 i j k 2 hi hj hk (by omega)]; rfl
  cells := by rw [h.cells]; exact (cells_get hc).1
  cell := fun ex ey ez q hx hy hz hq => by
    rw [h.cells]; exact ⟨(cells_get hc).2 ex ey ez q hx hy hz hq, corner_lt hc hx hy hz hq⟩
  offsets := by rw [h.offsets]; exact offsets_get.1
  offset := fun e he => by rw [h.offsets]; exact offsets_get.2 e he
  types := by
    rw [h.types]
    unfold vtuTypes
    have e : ∀ (n : Nat) (t : Tok α), isSep t = false →
        (emitP n fun _ => [t, .sp]).filter (fun t => !isSep t) = List.replicate n t := by
      intro n t ht
      rw [emitP_filter]
      induction n with
      | zero => rfl
      | succ n ih =>
        rw [show emitP (n + 1) (fun _ => List.filter (fun t => !isSep t) [t, .sp])
          = emitP n (fun _ => List.filter (fun t => !isSep t) [t, .sp])
            ++ List.filter (fun t => !isSep t) [t, .sp] by simp [emitP, List.range_succ], ih,
          List.replicate_succ']
        have hs : isSep (.sp : Tok α) = true := rfl
        simp [ht, hs]
    rcases hc.dim with hd | hd
    · simp only [hd, if_true]; exact e _ _ rfl
    · simp only [hd, if_true, show ¬ (3 : Nat) = 2 by decide, if_false]; exact e _ _ rfl
  displs := by rw [h.displ]; exact (nodal_get hc _).1
  displ := by rw [h.displ]; exact (nodal_get hc _).2
  bs := by rw [h.b]; exact (nodal_get hc _).1
  b := by rw [h.b]; exact (nodal_get hc _).2
  strains := by rw [h.strain]; exact (elem_get _).1
  strain := by rw [h.strain]; exact (elem_get _).2
  stresses := by rw [h.stress]; exact (elem_get _).1
  stress := by rw [h.stress]; exact (elem_get _).2
  elemTypes := by rw [h.elemType, elemTypeP, emitP_filter]; exact singles_length
  elemType := fun e he => by rw [h.elemType, elemTypeP, emitP_filter]; exact singles_get he
  plasticity := by rw [h.plasticity, plasticityP, emitP_filter]; exact singles_length
  hardening := by rw [h.hardening, hardeningP, emitP_filter]; exact singles_length

/-- **C50**: whatever calls have been made before, when `output` is called for a known Gauss point and
returns, the file `micropp_<id>_<tstep>.vtu` describes the grid and the data of the object after
the call.  For every scalar type. -/
theorem C50_vtu {env : Env α} {a : Args α} (ha : a.Ok) {j : Junk α} {calls : List (Call α)}
    {s : ObjFiles α} (h : Reach env a j calls s) {t id : Int} (hid : findGp id s.obj.gauss ≠ none)
    {r : Stepped α} (hr : step env s (.output t id) = .ok r) :
    ∃ ts, r.state.files.vtu id t = some ts ∧ VtuOf r.state.obj.cfg r.state.obj.work ts ∧
      ∀ g k, ¬ (g = id ∧ k = t) → r.state.files.vtu g k = s.files.vtu g k := by
  obtain ⟨hb, hok⟩ := reach_built ha h
  obtain ⟨g, hg⟩ := Option.ne_none_iff_exists'.1 hid
  simp only [step, bind_ok_iff, pure_ok_iff] at hr
  obtain ⟨s', hr, rfl⟩ := hr
  obtain ⟨w1, out, ts, H⟩ := output_stages hok hg hr
  obtain ⟨ts', h6, h7⟩ := writeVtu_sections hok.cfg H.work
  rw [H.written] at h6
  cases h6
  refine ⟨ts, H.file, ?_, H.others⟩
  show VtuOf s'.obj.cfg s'.obj.work ts
  rw [H.cfg]
  exact sections_vtu hok.cfg h7

end

/-- **C50**, internal variables: the entries of `plasticity` and `hardening` are the means over the
eight Gauss points of the norm of the plastic strain and of the hardening variable committed for the
macroscopic Gauss point (zero while it has none); in two dimensions they are 0. -/
theorem C50_internal {env : Env ℝ} {a : Args ℝ} (ha : a.Ok) {j : Junk ℝ} {calls : List (Call ℝ)}
    {s : ObjFiles ℝ} (h : Reach env a j calls s) {t id : Int} {g : Gp ℝ}
    (hg : findGp id s.obj.gauss = some g) {r : Stepped ℝ} (hr : step env s (.output t id) = .ok r)
    {v : Nat → ℝ} (hv : ∀ k, v k = match g.intVarsN with | none => 0 | some b => b.val k) :
    ∃ ts, r.state.files.vtu id t = some ts ∧ ∀ e, e < s.obj.cfg.nelem →
      ∃ p q, (dataOf hPlasticity ts)[e]? = some (.num p) ∧ (dataOf hHardening ts)[e]? = some (.num q) ∧
        (s.obj.cfg.dim = 2 → p = 0 ∧ q = 0) ∧
        (s.obj.cfg.dim = 3 →
          p = (∑ gp ∈ Finset.range 8, stressNorm fun i => v (e * 56 + gp * 7 + i)) / 8 ∧
          q = (∑ gp ∈ Finset.range 8, v (e * 56 + gp * 7 + 6)) / 8) := by
  obtain ⟨hb, hok⟩ := reach_built ha h
  simp only [step, bind_ok_iff, pure_ok_iff] at hr
  obtain ⟨s', hr, rfl⟩ := hr
  obtain ⟨w1, out, ts, H⟩ := output_stages hok hg hr
  obtain ⟨ts', h6, h7⟩ := writeVtu_sections hok.cfg H.work
  rw [H.written] at h6
  cases h6
  refine ⟨ts, H.file, fun e he =>
    ⟨gpMean s.obj.cfg fun gp => sigNorm (epsPAt s'.obj.work.varsOld e gp),
      gpMean s.obj.cfg fun gp => alphaAt s'.obj.work.varsOld e gp, ?_, ?_, ?_, ?_⟩⟩
  · rw [h7.plasticity, plasticityP, emitP_filter]; exact singles_get he
  · rw [h7.hardening, hardeningP, emitP_filter]; exact singles_get he
  · intro hd
    unfold gpMean
    rw [if_neg (by omega)]
    constructor <;> simp [accum]
  · intro hd
    have hval : ∀ gp i, gp < 8 → i < 7 →
        s'.obj.work.varsOld.val (intvarIx e gp i) = v (e * 56 + gp * 7 + i) := by
      intro gp i hgp hi
      have hk : intvarIx e gp i < s.obj.cfg.numIntVars := intvarIx_lt he hgp hi
      rw [H.old _ hk, hv]
      unfold intvarIx
      rw [show e * 8 * 7 + gp * 7 + i = e * 56 + gp * 7 + i by ring]
      cases g.intVarsN <;> rfl
    unfold gpMean
    rw [if_pos hd, accum_sum, accum_sum]
    constructor
    · rw [show ((8 : Nat) : ℝ) = 8 by norm_num,
        show (0 : ℝ) + ∑ i ∈ Finset.range 8, sigNorm (epsPAt s'.obj.work.varsOld e i)
          = ∑ i ∈ Finset.range 8, stressNorm fun j => v (e * 56 + i * 7 + j) from by
        rw [zero_add]
        refine Finset.sum_congr rfl fun gp hgp => ?_
        have hgp := Finset.mem_range.1 hgp
        rw [sigNorm_real]
        unfold stressNorm epsPAt
        simp only [show (0 : Nat) < 6 by decide, show (1 : Nat) < 6 by decide,
          show (2 : Nat) < 6 by decide, show (3 : Nat) < 6 by decide, show (4 : Nat) < 6 by decide,
          show (5 : Nat) < 6 by decide, if_true, hval gp 0 hgp (by decide), hval gp 1 hgp (by decide),
          hval gp 2 hgp (by decide), hval gp 3 hgp (by decide), hval gp 4 hgp (by decide),
          hval gp 5 hgp (by decide)]]
    · rw [show ((8 : Nat) : ℝ) = 8 by norm_num,
        show (0 : ℝ) + ∑ i ∈ Finset.range 8, alphaAt s'.obj.work.varsOld e i
          = ∑ i ∈ Finset.range 8, v (e * 56 + i * 7 + 6) from by
        rw [zero_add]
        refine Finset.sum_congr rfl fun gp hgp => ?_
        exact hval gp 6 (Finset.mem_range.1 hgp) (by decide)]

/-- The hypothesis of C50 holds for the Gauss points of the example. -/
theorem ex_known {a : Args ℝ} {s : ObjFiles ℝ} (hs : Reach exEnv a exJunk exCalls s) :
    findGp 9 s.obj.gauss ≠ none := by
  obtain ⟨f, h⟩ := hs
  obtain ⟨s0, h1, h2⟩ := bind_ok_iff.1 h
  rw [Ne, findGp_none_iff, (C39_map exEnv exCalls s0 s (construct_fresh h1) h2).1]
  simp [setIds, exCalls]

/-- The call for Gauss point 9 of the example returns, and the file it writes announces 36 points and 12
cells, the last of which has the node 35 as its seventh corner. -/
example : ∃ s, Reach exEnv exArgs3 exJunk exCalls s ∧ findGp 9 s.obj.gauss ≠ none ∧
    ∃ r, step exEnv s (.output 3 9) = .ok r ∧ ∃ ts, r.state.files.vtu 9 3 = some ts ∧
      announced ts = [.int 36, .int 12] ∧ (dataOf hConnectivity ts)[94]? = some (.int 35) := by
  obtain ⟨s, hs⟩ := reach_exists exEnv_quick exArgs3_ok exJunk exCalls
  obtain ⟨hb, hok⟩ := reach_built exArgs3_ok hs
  obtain ⟨r, hr, -⟩ := (step_sane hok (.output 3 9)).returns exEnv_quick
  obtain ⟨ts, h1, h2, -⟩ := C50_vtu exArgs3_ok hs (ex_known hs) hr
  refine ⟨s, hs, ex_known hs, r, hr, ts, h1, ?_, ?_⟩
  · obtain ⟨et, ct, hc⟩ := hb.eq
    have hc' : r.state.obj.cfg = s.obj.cfg := step_cfg hr
    rw [h2.count, hc', hc]
    simp [mkCfg, exArgs3, Cfg.nn, Cfg.nelem]
  · obtain ⟨et, ct, hc⟩ := hb.eq
    have hc' : r.state.obj.cfg = s.obj.cfg := step_cfg hr
    have h3 := (h2.cell 2 1 1 6 (by rw [hc', hc]; show 2 < 4 - 1; decide)
      (by rw [hc', hc]; show 1 < 3 - 1; decide) (by rw [hc', hc]; show 1 < 3 - 1; decide)
      (by rw [hc', hc]; show 6 < 8; decide)).1
    rw [hc', hc] at h3
    exact h3

end Verif.Props
