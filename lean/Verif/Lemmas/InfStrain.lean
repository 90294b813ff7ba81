import Verif.Lemmas.Void

/-!
# Infinite strains
-/

namespace Verif
open Spec
variable {fp : Range} {c : Cfg (Dbl fp)}

/-- Infinite or NaN. -/
def NotFin (a : Dbl fp) : Prop := a.isFin = false

/-- A component of the strain is infinite or NaN. -/
def InfStrain (c : Cfg (Dbl fp)) (eps : Nat → Dbl fp) : Prop := ∃ v, v < c.nvoi ∧ NotFin (eps v)

theorem NotFin.mul_l {a : Dbl fp} (h : NotFin a) (b : Dbl fp) : NotFin (a * b) := by
  show (Dbl.mul a b).isFin = false
  cases a with
  | fin x h1 h2 => cases h
  | nan => rfl
  | inf s =>
    cases b with
    | fin y h1 h2 =>
      show Dbl.isFin (if y = 0 then .nan else .inf _) = false
      split <;> rfl
    | nan => rfl
    | inf t => rfl

theorem NotFin.mul_r {a : Dbl fp} (h : NotFin a) (b : Dbl fp) : NotFin (b * a) := by
  show (Dbl.mul b a).isFin = false
  cases a with
  | fin x h1 h2 => cases h
  | nan => cases b <;> rfl
  | inf s =>
    cases b with
    | fin y h1 h2 =>
      show Dbl.isFin (if y = 0 then .nan else .inf _) = false
      split <;> rfl
    | nan => rfl
    | inf t => rfl

theorem NotFin.add_l {a : Dbl fp} (h : NotFin a) (b : Dbl fp) : NotFin (a + b) := by
  show (Dbl.add a b).isFin = false
  cases a with
  | fin x h1 h2 => cases h
  | nan => rfl
  | inf s =>
    cases b with
    | fin y h1 h2 => rfl
    | nan => rfl
    | inf t => cases s <;> cases t <;> rfl

theorem NotFin.add_r {a : Dbl fp} (h : NotFin a) (b : Dbl fp) : NotFin (b + a) := by
  show (Dbl.add b a).isFin = false
  cases a with
  | fin x h1 h2 => cases h
  | nan => cases b <;> rfl
  | inf s =>
    cases b with
    | fin y h1 h2 => rfl
    | nan => rfl
    | inf t => cases s <;> cases t <;> rfl

theorem NotFin.accum {f : Nat → Dbl fp} {n k : Nat} (hk : k < n) (h : NotFin (f k)) (z : Dbl fp) :
    NotFin (Verif.accum n (fun j s => s + f j) z) := by
  induction n with
  | zero => omega
  | succ n ih =>
    show NotFin (Verif.accum n (fun j s => s + f j) z + f n)
    by_cases e : k = n
    · subst e; exact h.add_r _
    · exact (ih (by omega)).add_l _

theorem NotFin.abs_lt {a : Dbl fp} (h : NotFin a) (b : Dbl fp) : Scalar.lt (Scalar.abs a) b = false := by
  cases a with
  | fin x h1 h2 => cases h
  | nan => rfl
  | inf s =>
    have e : Scalar.abs (Dbl.inf s : Dbl fp) = .inf false := by
      unfold Scalar.abs
      cases s <;> rfl
    rw [e]
    cases b <;> rfl

/-- `inf * 0`. -/
theorem NotFin.mul_nil {a b : Dbl fp} (h : NotFin a) (hb : Nil b) : IsNan (a * b) := by
  show (Dbl.mul a b).isNan = true
  cases a with
  | fin x h1 h2 => cases h
  | nan => rfl
  | inf s =>
    rcases hb with rfl | rfl
    · show Dbl.isNan (if (0 : ℝ) = 0 then _ else _) = true
      rw [if_pos rfl]; rfl
    · rfl

/-- The coordinates of the corner. -/
theorem nil_corner (d : Dbl fp) : Nil (((0 : Nat) : Dbl fp) * d) :=
  Nil.mul_r (by
    left
    show Dbl.round fp ((0 : Nat) : ℝ) = 0
    rw [Nat.cast_zero]; exact round_zero) _

local macro "nil" : tactic => `(tactic| first | exact nil_corner _ | exact Nil.zero)

/-- An infinite strain gives the corner of the cell a NaN displacement: `inf * 0`. -/
theorem setDispl_inf (hc : c.Ok) (hB : c.Big) {w w1 : Work (Dbl fp)} (hw : w.Ok c) {eps : Nat → Dbl fp}
    (h : setDispl c w eps = .ok w1) (hn : InfStrain c eps) : w1.Hit c := by
  refine hit_of_elem hc hB (inGrid_zero hc) ?_
  rw [setDispl_gen hc hw.u h]
  obtain ⟨v, hv, hn⟩ := hn
  show c.HitElem (c.displV eps w.u.val) 0 0 0
  unfold Cfg.HitElem Cfg.displV
  unfold Cfg.nvoi at hv
  have := hB.nx
  have := hB.ny
  rcases hc.dim with hd | hd
  · rw [if_pos hd] at hv ⊢
    rw [if_pos hd]
    have key : ∀ d, d < 2 → IsNan (displVal2 c eps 0 0 d) → ∃ i, i < 8 ∧ IsNan (displ2 c eps w.u.val (edof2 c.nx 0 0 i)) := by
      intro d hd' hn
      refine ⟨d, by omega, ?_⟩
      have e : edof2 c.nx 0 0 d = node2 c.nx 0 0 * 2 + d := by
        unfold edof2 enode2
        rw [Nat.div_eq_of_lt hd', Nat.mod_eq_of_lt hd']; simp [cornerX, cornerY]
      unfold displ2
      have hb : BdryDof2 2 c.nx c.ny (edof2 c.nx 0 0 d) := by
        rw [e, bdryDof2_iff (by omega) hd']; unfold Bdry2; omega
      rw [if_pos ⟨edof2_lt (by omega) (by omega), hb⟩, e, atDof2_node _ (by omega) hd']
      exact hn
    have e : ∀ d, displVal2 c eps 0 0 d = affine2 eps (((0 : Nat) : Dbl fp) * c.dx) 0 d := fun d => by
      unfold displVal2; rw [if_pos rfl]
    unfold affine2 at e
    obtain rfl | rfl | rfl : v = 0 ∨ v = 1 ∨ v = 2 := by omega
    · exact key 0 (by omega) (by rw [e, if_pos rfl]; exact (hn.mul_nil (by nil)).add_l _)
    · exact key 1 (by omega) (by rw [e, if_neg (by omega)]; exact (hn.mul_nil (by nil)).add_r _)
    · exact key 0 (by omega) (by rw [e, if_pos rfl]; exact ((hn.mul_r _).mul_nil (by nil)).add_r _)
  · have := hB.nz hd
    rw [if_neg (by omega)] at hv ⊢
    rw [if_neg (by omega)]
    have key : ∀ d, d < 3 → IsNan (displVal3 c eps 0 0 0 d) →
        ∃ i, i < 24 ∧ IsNan (displ3 c eps w.u.val (edof3 c.nx c.ny 0 0 0 i)) := by
      intro d hd' hn
      refine ⟨d, by omega, ?_⟩
      have e : edof3 c.nx c.ny 0 0 0 d = node3 c.nx c.ny 0 0 0 * 3 + d := by
        unfold edof3 enode3
        rw [Nat.div_eq_of_lt hd', Nat.mod_eq_of_lt hd']; simp [cornerX, cornerY, cornerZ]
      unfold displ3
      have hb : BdryDof3 3 c.nx c.ny c.nz (edof3 c.nx c.ny 0 0 0 d) := by
        rw [e, bdryDof3_iff (by omega) (by omega) hd']; unfold Bdry3; omega
      rw [if_pos ⟨edof3_lt (by omega) (by omega) (by omega) (by omega), hb⟩, e,
        atDof3_node _ (by omega) (by omega) hd']
      exact hn
    have e : ∀ d, displVal3 c eps 0 0 0 d
        = affine3 eps (((0 : Nat) : Dbl fp) * c.dx) (((0 : Nat) : Dbl fp) * c.dy) 0 d := fun d => by
      unfold displVal3; rw [if_pos rfl]
    unfold affine3 at e
    obtain rfl | rfl | rfl | rfl | rfl | rfl : v = 0 ∨ v = 1 ∨ v = 2 ∨ v = 3 ∨ v = 4 ∨ v = 5 := by omega
    · exact key 0 (by omega) (by rw [e, if_pos rfl]; exact ((hn.mul_nil (by nil)).add_l _).add_l _)
    · exact key 1 (by omega) (by rw [e, if_neg (by omega), if_pos rfl]; exact ((hn.mul_nil (by nil)).add_r _).add_l _)
    · exact key 2 (by omega) (by rw [e, if_neg (by omega), if_neg (by omega)]; exact (hn.mul_nil (by nil)).add_r _)
    · exact key 0 (by omega) (by rw [e, if_pos rfl]; exact (((hn.mul_r _).mul_nil (by nil)).add_r _).add_l _)
    · exact key 0 (by omega) (by rw [e, if_pos rfl]; exact ((hn.mul_r _).mul_nil (by nil)).add_r _)
    · exact key 1 (by omega) (by rw [e, if_neg (by omega), if_pos rfl]; exact ((hn.mul_r _).mul_nil (by nil)).add_r _)


theorem InfStrain.poisons (hc : c.Ok) (hB : c.Big) {eps : Nat → Dbl fp} (hn : InfStrain c eps) : Poisons c eps :=
  fun _ _ hw h => setDispl_inf hc hB hw h hn

/-- An infinite strain is not on the linear path. -/
theorem not_linear_inf {g : Gp (Dbl fp)} (h : InfStrain c g.macroStrain) : ¬ Props.TakesLinearPath c g := by
  rintro ⟨-, hl⟩
  obtain ⟨v, hv, h⟩ := h
  have key : ∀ i, NotFin (Props.matVec c.nvoi c.ctanLin g.macroStrain i) := fun i => by
    have : Props.matVec c.nvoi c.ctanLin g.macroStrain i
        = accum c.nvoi (fun j s => s + c.ctanLin (i * c.nvoi + j) * g.macroStrain j) 0 := by
      rw [Props.accum_foldl]; rfl
    rw [this]
    exact NotFin.accum (f := fun j => c.ctanLin (i * c.nvoi + j) * g.macroStrain j) hv (h.mul_r _) _
  have : NotFin (Props.traceV c.dim (Props.matVec c.nvoi c.ctanLin g.macroStrain)) := by
    unfold Props.traceV
    split
    · exact (key 0).add_l _
    · exact ((key 0).add_l _).add_l _
  rw [this.abs_lt] at hl
  cases hl

end Verif
