import Verif.Lemmas.Built
import Verif.Lemmas.Damage

/-!
# C48, C49: microstructure and elastic constants
-/

namespace Verif.Props
open Verif Spec

/-! ## C48: classification of the elements -/

/-- Coordinate of the centre of element number `e` of a row of `n - 1` equal elements on a length. -/
noncomputable def centre (length : ℝ) (n e : Nat) : ℝ := (e + 1 / 2) * (length / (n - 1))

/-- The type the object stores for an element. -/
def storedType (c : Cfg ℝ) (ex ey ez : Nat) : Int := c.elemType.val (gloElem3D c.nx c.ny ex ey ez)

/-- `(ex, ey, ez)` is an element of the grid described by the arguments of the constructor. -/
def IsElem (a : Args ℝ) (ex ey ez : Nat) : Prop :=
  ex + 1 < a.size 0 ∧ ey + 1 < a.size 1 ∧ (a.dim = 2 → ez = 0) ∧ (a.dim = 3 → ez + 1 < a.size 2)

theorem centre_eq {L : ℝ} {n e : Nat} (hn : 2 ≤ n) :
    (e : ℝ) * (L / ((n - 1 : Nat) : ℝ)) + L / ((n - 1 : Nat) : ℝ) / ((2 : Nat) : ℝ) = centre L n e := by
  unfold centre
  rw [Nat.cast_sub (by omega)]
  push_cast; ring

/-- The mirror image of an element has the mirrored centre. -/
theorem centre_mirror {L : ℝ} {n e : Nat} (he : e + 1 < n) :
    centre L n (n - 2 - e) = L - centre L n e := by
  unfold centre
  have h : ((n - 2 - e : Nat) : ℝ) = n - 2 - e := by
    rw [Nat.cast_sub (by omega), Nat.cast_sub (by omega)]; push_cast; ring
  have hn : (n : ℝ) - 1 ≠ 0 := by
    have : (2 : ℝ) ≤ n := by exact_mod_cast (by omega : 2 ≤ n)
    linarith
  rw [h]
  field_simp
  ring

variable {env : Env ℝ} {a : Args ℝ} {j : Junk ℝ} {calls : List (Call ℝ)} {s : ObjFiles ℝ}

theorem type_eq (ha : a.Ok) (h : Reach env a j calls s) {ex ey ez : Nat} (he : IsElem a ex ey ez) :
    storedType s.obj.cfg ex ey ez = elemTypeOf s.obj.cfg ex ey ez ∧
    ∃ et ct, s.obj.cfg = { mkCfg a j et with ctanLin := ct } := by
  obtain ⟨hb, -⟩ := reach_built ha h
  obtain ⟨h1, h2, h3, h4⟩ := he
  obtain ⟨et, ct, hc⟩ := hb.eq
  refine ⟨hb.elem ex ey ez ?_ ?_ ?_ ?_, et, ct, hc⟩
  · rw [hc]; show ex < a.size 0 - 1; omega
  · rw [hc]; show ey < a.size 1 - 1; omega
  · rw [hc]; exact h3
  · rw [hc]; intro hd
    have hd : a.dim = 3 := hd
    have := h4 hd
    show ez < (if a.dim = 2 then 1 else a.size 2) - 1
    rw [if_neg (by omega)]; omega

/-- **C48**, layered structure: whatever calls have been made, an element has type 1 if its centre lies
below the width, and type 0 otherwise. -/
theorem C48_layered (ha : a.Ok) (hm : a.microType = 1) (h : Reach env a j calls s)
    {ex ey ez : Nat} (he : IsElem a ex ey ez) :
    storedType s.obj.cfg ex ey ez
      = if centre (a.microParams 1) (a.size 1) ey < a.microParams 3 then 1 else 0 := by
  obtain ⟨h1, et, ct, hc⟩ := type_eq ha h he
  rw [h1, hc]
  have e := centre_eq (L := a.microParams 1) (e := ey) ha.ny
  rw [← e]
  have h0 : ¬ (1 : Int) = 0 := by decide
  rcases ha.dim with hd | hd
  · simp only [elemTypeOf, getElemType2D, mkCfg, hd, hm, h0, if_true, if_false, lt_real, decide_eq_true_eq]
  · have h32 : ¬ (3 : Nat) = 2 := by decide
    simp only [elemTypeOf, getElemType3D, mkCfg, hd, hm, h0, h32, if_true, if_false, lt_real, decide_eq_true_eq]

/-- **C48**, layered structure: elements of equal height have equal types. -/
theorem C48_layers (ha : a.Ok) (hm : a.microType = 1) (h : Reach env a j calls s)
    {ex ey ez ex' ez' : Nat} (he : IsElem a ex ey ez) (he' : IsElem a ex' ey ez') :
    storedType s.obj.cfg ex ey ez = storedType s.obj.cfg ex' ey ez' := by
  rw [C48_layered ha hm h he, C48_layered ha hm h he']

example : ∃ s, Reach exEnv exArgs3 exJunk exCalls s ∧
    storedType s.obj.cfg 0 1 0 = storedType s.obj.cfg 2 1 1 := by
  obtain ⟨s, hs⟩ := reach_exists exEnv_quick exArgs3_ok exJunk exCalls
  exact ⟨s, hs, C48_layers exArgs3_ok rfl hs ⟨by decide, by decide, by decide, by decide⟩
    ⟨by decide, by decide, by decide, by decide⟩⟩

/-- Distance of the centre of an element from the centre of the cell. -/
noncomputable def offCentre (a : Args ℝ) (ex ey ez : Nat) : ℝ :=
  Real.sqrt ((centre (a.microParams 0) (a.size 0) ex - a.microParams 0 / 2) ^ 2
    + (centre (a.microParams 1) (a.size 1) ey - a.microParams 1 / 2) ^ 2
    + if a.dim = 2 then 0 else (centre (a.microParams 2) (a.size 2) ez - a.microParams 2 / 2) ^ 2)

/-- **C48**, inclusion: an element has type 1 if its centre is closer to the centre of the cell than the
absolute value of the width, and type 0 otherwise. -/
theorem C48_inclusion (ha : a.Ok) (hm : a.microType = 0) (h : Reach env a j calls s)
    {ex ey ez : Nat} (he : IsElem a ex ey ez) :
    storedType s.obj.cfg ex ey ez = if offCentre a ex ey ez < |a.microParams 3| then 1 else 0 := by
  obtain ⟨h1, et, ct, hc⟩ := type_eq ha h he
  have e1 := centre_eq (L := a.microParams 0) (e := ex) ha.nx
  have e2 := centre_eq (L := a.microParams 1) (e := ey) ha.ny
  have key : ∀ q w : ℝ, 0 ≤ q → (Real.sqrt q < |w| ↔ q < w * w) := fun q w hq => by
    rw [← Real.sqrt_mul_self_eq_abs]
    exact Real.sqrt_lt_sqrt_iff hq
  rw [h1, hc]
  unfold offCentre
  rcases ha.dim with hd | hd
  · have h2 := key ((centre (a.microParams 0) (a.size 0) ex - a.microParams 0 / 2) ^ 2
      + (centre (a.microParams 1) (a.size 1) ey - a.microParams 1 / 2) ^ 2 + 0) (a.microParams 3)
      (by positivity)
    simp only [hd, if_true, h2]
    simp only [elemTypeOf, getElemType2D, mkCfg, hd, hm, if_true, lt_real, decide_eq_true_eq, e1, e2]
    congr 2
    push_cast; ring
  · have h32 : ¬ (3 : Nat) = 2 := by decide
    have e3 := centre_eq (L := a.microParams 2) (e := ez) (ha.nz hd)
    have h2 := key ((centre (a.microParams 0) (a.size 0) ex - a.microParams 0 / 2) ^ 2
      + (centre (a.microParams 1) (a.size 1) ey - a.microParams 1 / 2) ^ 2
      + (centre (a.microParams 2) (a.size 2) ez - a.microParams 2 / 2) ^ 2) (a.microParams 3)
      (by positivity)
    simp only [hd, h32, if_false, h2]
    simp only [elemTypeOf, getElemType3D, mkCfg, hd, hm, h32, if_true, if_false, lt_real,
      decide_eq_true_eq, e1, e2, e3]
    congr 2
    push_cast; ring

/-- **C48**, inclusion: the pattern is mirror symmetric in each direction. -/
theorem C48_mirror (ha : a.Ok) (hm : a.microType = 0) (h : Reach env a j calls s)
    {ex ey ez : Nat} (he : IsElem a ex ey ez) :
    storedType s.obj.cfg (a.size 0 - 2 - ex) ey ez = storedType s.obj.cfg ex ey ez ∧
    storedType s.obj.cfg ex (a.size 1 - 2 - ey) ez = storedType s.obj.cfg ex ey ez ∧
    (a.dim = 3 → storedType s.obj.cfg ex ey (a.size 2 - 2 - ez) = storedType s.obj.cfg ex ey ez) := by
  obtain ⟨h1, h2, h3, h4⟩ := id he
  refine ⟨?_, ?_, fun hd => ?_⟩
  · rw [C48_inclusion ha hm h he, C48_inclusion ha hm h ⟨by omega, h2, h3, h4⟩]
    unfold offCentre
    rw [centre_mirror h1]
    congr 4; ring
  · rw [C48_inclusion ha hm h he, C48_inclusion ha hm h ⟨h1, by omega, h3, h4⟩]
    unfold offCentre
    rw [centre_mirror h2]
    congr 5; ring
  · have h5 := h4 hd
    rw [C48_inclusion ha hm h he,
      C48_inclusion ha hm h ⟨h1, h2, fun h => by omega, fun _ => by omega⟩]
    unfold offCentre
    rw [centre_mirror h5]
    simp only [hd, if_false, show ¬ (3 : Nat) = 2 by decide]
    congr 4; ring

example : ∃ s, Reach exEnv exArgs2 exJunk exCalls s ∧ storedType s.obj.cfg 2 1 0 = storedType s.obj.cfg 0 1 0 := by
  obtain ⟨s, hs⟩ := reach_exists exEnv_quick exArgs2_ok exJunk exCalls
  exact ⟨s, hs, (C48_mirror exArgs2_ok rfl hs (ex := 0) (ey := 1) (ez := 0)
    ⟨by decide, by decide, by decide, by decide⟩).1⟩

/-- The material of an element as the constructor computes it. -/
theorem material_eq (ha : a.Ok) (h : Reach env a j calls s) {ex ey ez : Nat}
    (he : IsElem a ex ey ez) :
    ∃ t : Nat, t < 2 ∧ storedType s.obj.cfg ex ey ez = t ∧
      getMaterial s.obj.cfg (gloElem3D s.obj.cfg.nx s.obj.cfg.ny ex ey ez)
        = .ok (mkMaterial (fun k => a.params (10 * t + k)) (a.matTypes t) (j.mats t)) := by
  have ht : ∃ t : Nat, t < 2 ∧ storedType s.obj.cfg ex ey ez = t := by
    rcases ha.micro with hm | hm
    · rw [C48_inclusion ha hm h he]
      split
      · exact ⟨1, by omega, rfl⟩
      · exact ⟨0, by omega, rfl⟩
    · rw [C48_layered ha hm h he]
      split
      · exact ⟨1, by omega, rfl⟩
      · exact ⟨0, by omega, rfl⟩
  obtain ⟨t, h2, h3⟩ := ht
  refine ⟨t, h2, h3, ?_⟩
  obtain ⟨hb, -⟩ := reach_built ha h
  obtain ⟨-, et, ct, hc⟩ := type_eq ha h he
  have hsize : gloElem3D s.obj.cfg.nx s.obj.cfg.ny ex ey ez < s.obj.cfg.elemType.size := by
    rw [hb.ok.elem]
    obtain ⟨h1, h2, h4, h5⟩ := he
    have hx : ex < s.obj.cfg.nx - 1 := by rw [hc]; show ex < a.size 0 - 1; omega
    have hy : ey < s.obj.cfg.ny - 1 := by rw [hc]; show ey < a.size 1 - 1; omega
    rcases ha.dim with hd | hd
    · rw [nelem2 (by rw [hc]; exact hd), h4 hd]
      exact gloElem2D_lt hx hy
    · rw [nelem3 (by rw [hc]; exact hd)]
      refine gloElem3D_lt hx hy ?_
      rw [hc]; show ez < (if a.dim = 2 then 1 else a.size 2) - 1
      rw [if_neg (by omega)]; have := h5 hd; omega
  rw [getMaterial_eq hb.ok.micro hsize]
  have hmat : matOf s.obj.cfg (gloElem3D s.obj.cfg.nx s.obj.cfg.ny ex ey ez)
      = mkMaterial (fun k => a.params (t * 10 + k)) (a.matTypes t) (j.mats t) := by
    unfold matOf
    have h3 : s.obj.cfg.elemType.val (gloElem3D s.obj.cfg.nx s.obj.cfg.ny ex ey ez) = t := h3
    rw [h3]
    have e : (if (t : Int) = 0 then 0 else 1 : Nat) = t := by
      obtain rfl | rfl : t = 0 ∨ t = 1 := by omega
      · rfl
      · rfl
    rw [e, hc]
    show (if t < 2 then _ else _) = _
    rw [if_pos h2]
  rw [hmat, Nat.mul_comm]

/-- **C48**: each element has type 0 or 1, and the material used for it is the one the caller
described in the ten entries of `params` belonging to its type. -/
theorem C48_material (ha : a.Ok) (h : Reach env a j calls s) {ex ey ez : Nat}
    (he : IsElem a ex ey ez) :
    ∃ t : Nat, t < 2 ∧ storedType s.obj.cfg ex ey ez = t ∧
      ∃ m, getMaterial s.obj.cfg (gloElem3D s.obj.cfg.nx s.obj.cfg.ny ex ey ez) = .ok m ∧
        m.E = a.params (10 * t) ∧ m.nu = a.params (10 * t + 1) ∧ m.Sy = a.params (10 * t + 2) ∧
        m.Ka = a.params (10 * t + 3) ∧
        (a.matTypes t = 0 → m.plasticity = false) ∧ (a.matTypes t = 1 → m.plasticity = true) ∧
        (a.matTypes t = 2 → m.plasticity = false) := by
  obtain ⟨t, h2, h3, h4⟩ := material_eq ha h he
  refine ⟨t, h2, h3, _, h4, rfl, rfl, rfl, rfl, fun h => ?_, fun h => ?_, fun h => ?_⟩ <;>
    simp [mkMaterial, h]

/-- The layered example: element `(1, 0, 1)` of the `3 × 2 × 5` cell with `4 × 3 × 3` nodes has its
centre at height `1/2 < 1`, so it has type 1; the element above has its centre at height
`3/2` and type 0. -/
example : ∃ s, Reach exEnv exArgs3 exJunk exCalls s ∧ storedType s.obj.cfg 1 0 1 = 1 ∧
    storedType s.obj.cfg 1 1 1 = 0 := by
  obtain ⟨s, hs⟩ := reach_exists exEnv_quick exArgs3_ok exJunk exCalls
  refine ⟨s, hs, ?_, ?_⟩
  · rw [C48_layered exArgs3_ok rfl hs ⟨by decide, by decide, by decide, by decide⟩, if_pos]
    norm_num [centre, exArgs3]
  · rw [C48_layered exArgs3_ok rfl hs ⟨by decide, by decide, by decide, by decide⟩, if_neg]
    norm_num [centre, exArgs3]

/-- The inclusion example: in the `3 × 2` cell the middle elements are at distance `1/2` from the
centre and belong to the inclusion of radius 1; the corner elements do not. -/
example : ∃ s, Reach exEnv exArgs2 exJunk exCalls s ∧ storedType s.obj.cfg 1 0 0 = 1 ∧
    storedType s.obj.cfg 2 1 0 = 0 := by
  obtain ⟨s, hs⟩ := reach_exists exEnv_quick exArgs2_ok exJunk exCalls
  refine ⟨s, hs, ?_, ?_⟩
  · rw [C48_inclusion exArgs2_ok rfl hs ⟨by decide, by decide, by decide, by decide⟩, if_pos]
    unfold offCentre
    rw [show |exArgs2.microParams 3| = 1 by norm_num [exArgs2, exArgs3],
      Real.sqrt_lt' (by norm_num)]
    norm_num [centre, exArgs2, exArgs3]
  · rw [C48_inclusion exArgs2_ok rfl hs ⟨by decide, by decide, by decide, by decide⟩, if_neg]
    unfold offCentre
    rw [show |exArgs2.microParams 3| = 1 by norm_num [exArgs2, exArgs3],
      Real.sqrt_lt' (by norm_num)]
    norm_num [centre, exArgs2, exArgs3]

/-! ## C49: elastic constants -/

/-- **C49**: the bulk modulus, the shear modulus and the first Lamé constant the constructor stores for a
material are those of its Young's modulus and Poisson's ratio. -/
theorem C49_constants (ha : a.Ok) (h : Reach env a j calls s) {i : Nat} (hi : i < 2) {E nu : ℝ}
    (hE : E = a.params (10 * i)) (hnu : nu = a.params (10 * i + 1)) (h1 : nu ≠ -1)
    (h2 : nu ≠ 1 / 2) (h0 : E ≠ 0) :
    (s.obj.cfg.mats i).E = E ∧ (s.obj.cfg.mats i).nu = nu ∧
    (s.obj.cfg.mats i).k = (s.obj.cfg.mats i).lambda + 2 * (s.obj.cfg.mats i).mu / 3 ∧
    3 * (s.obj.cfg.mats i).k + (s.obj.cfg.mats i).mu ≠ 0 ∧
    E = 9 * (s.obj.cfg.mats i).k * (s.obj.cfg.mats i).mu
      / (3 * (s.obj.cfg.mats i).k + (s.obj.cfg.mats i).mu) ∧
    nu * (2 * ((s.obj.cfg.mats i).lambda + (s.obj.cfg.mats i).mu)) = (s.obj.cfg.mats i).lambda := by
  obtain ⟨et, ct, hc⟩ := (reach_built ha h).1.eq
  have hm : s.obj.cfg.mats i = mkMaterial (fun k => a.params (i * 10 + k)) (a.matTypes i) (j.mats i) := by
    rw [hc]
    show (if i < 2 then _ else _) = _
    rw [if_pos hi]
  rw [hm]
  rw [Nat.mul_comm] at hE hnu
  have g1 : 1 + nu ≠ 0 := fun h => h1 (by linarith)
  have g2 : 1 - 2 * nu ≠ 0 := fun h => h2 (by linarith)
  have ek : (mkMaterial (fun k => a.params (i * 10 + k)) (a.matTypes i) (j.mats i)).k
      = E / (3 * (1 - 2 * nu)) := by
    rw [hE, hnu]; simp [mkMaterial]
  have em : (mkMaterial (fun k => a.params (i * 10 + k)) (a.matTypes i) (j.mats i)).mu
      = E / (2 * (1 + nu)) := by
    rw [hE, hnu]; simp [mkMaterial]
  have el : (mkMaterial (fun k => a.params (i * 10 + k)) (a.matTypes i) (j.mats i)).lambda
      = nu * E / ((1 + nu) * (1 - 2 * nu)) := by
    rw [hE, hnu]; simp [mkMaterial]
  rw [ek, em, el]
  have hs : 3 * (E / (3 * (1 - 2 * nu))) + E / (2 * (1 + nu))
      = 3 * E / (2 * (1 + nu) * (1 - 2 * nu)) := by
    field_simp; ring
  refine ⟨by rw [hE]; rfl, by rw [hnu]; rfl, by field_simp; ring, ?_, ?_, ?_⟩
  · rw [hs]; exact div_ne_zero (by simpa using h0) (mul_ne_zero (by simpa using g1) g2)
  · rw [hs, show 9 * (E / (3 * (1 - 2 * nu))) * (E / (2 * (1 + nu)))
      = 9 * E * E / (3 * (1 - 2 * nu) * (2 * (1 + nu))) by rw [mul_assoc, div_mul_div_comm]; ring,
      div_div_div_eq, eq_comm, div_eq_iff]
    · ring
    · exact mul_ne_zero (mul_ne_zero (mul_ne_zero three_ne_zero g2) (mul_ne_zero two_ne_zero g1))
        (mul_ne_zero three_ne_zero h0)
  · have e3 : nu * E / ((1 + nu) * (1 - 2 * nu)) + E / (2 * (1 + nu))
        = E / (2 * ((1 + nu) * (1 - 2 * nu))) := by
      rw [div_add_div _ _ (mul_ne_zero g1 g2) (mul_ne_zero two_ne_zero g1), div_eq_div_iff
        (mul_ne_zero (mul_ne_zero g1 g2) (mul_ne_zero two_ne_zero g1))
        (mul_ne_zero two_ne_zero (mul_ne_zero g1 g2))]
      ring
    rw [e3, mul_div_assoc', mul_div_mul_left _ _ two_ne_zero, mul_div_assoc]

/-- The second material of `exArgs3`. -/
example : ∃ s, Reach exEnv exArgs3 exJunk exCalls s ∧ exArgs3.params 10 = 9 * (s.obj.cfg.mats 1).k
    * (s.obj.cfg.mats 1).mu / (3 * (s.obj.cfg.mats 1).k + (s.obj.cfg.mats 1).mu) := by
  obtain ⟨s, hs⟩ := reach_exists exEnv_quick exArgs3_ok exJunk exCalls
  exact ⟨s, hs, (C49_constants exArgs3_ok hs (i := 1) (by omega) rfl rfl (by norm_num [exArgs3])
    (by norm_num [exArgs3]) (by norm_num [exArgs3])).2.2.2.2.1⟩

/-- **C49**: for a positive Young's modulus and a Poisson's ratio between 0 and 1/2 the stored
constants are positive. -/
theorem C49_positive (ha : a.Ok) (h : Reach env a j calls s) {i : Nat} (hi : i < 2)
    (hE : 0 < a.params (10 * i)) (h1 : 0 < a.params (10 * i + 1))
    (h2 : a.params (10 * i + 1) < 1 / 2) :
    0 < (s.obj.cfg.mats i).k ∧ 0 < (s.obj.cfg.mats i).mu ∧ 0 < (s.obj.cfg.mats i).lambda := by
  obtain ⟨et, ct, hc⟩ := (reach_built ha h).1.eq
  have hm : s.obj.cfg.mats i = mkMaterial (fun k => a.params (i * 10 + k)) (a.matTypes i) (j.mats i) := by
    rw [hc]
    show (if i < 2 then _ else _) = _
    rw [if_pos hi]
  rw [hm]
  rw [Nat.mul_comm] at hE h1 h2
  have g2 : 0 < 1 - 2 * a.params (i * 10 + 1) := by linarith
  simp only [mkMaterial, add_zero]
  push_cast
  refine ⟨by positivity, by positivity, by positivity⟩

example : ∃ s, Reach exEnv exArgs3 exJunk exCalls s ∧ 0 < (s.obj.cfg.mats 1).lambda := by
  obtain ⟨s, hs⟩ := reach_exists exEnv_quick exArgs3_ok exJunk exCalls
  exact ⟨s, hs, (C49_positive exArgs3_ok hs (i := 1) (by omega) (by norm_num [exArgs3])
    (by norm_num [exArgs3]) (by norm_num [exArgs3])).2.2⟩

/-- **C49**: the stress of a two-dimensional element is the in-plane part of the three-dimensional
isotropic stress of a strain without out-of-plane components, and the three-dimensional stress of
an element whose material is not plastic is the isotropic one, with the constants stored for the element's
material. -/
theorem C49_plane (ha : a.Ok) (h : Reach env a j calls s) {ex ey ez : Nat} (he : IsElem a ex ey ez)
    (hnu : ∀ i, i < 2 → a.params (10 * i + 1) ≠ -1 ∧ a.params (10 * i + 1) ≠ 1 / 2)
    (eps : Nat → ℝ) :
    ∃ m, getMaterial s.obj.cfg (gloElem3D s.obj.cfg.nx s.obj.cfg.ny ex ey ez) = .ok m ∧
      (a.dim = 2 → ∃ sig, getStress2D s.obj.cfg ex ey eps = .ok sig ∧
        ∀ i, i < 3 → sig i = planeStrain m.lambda m.mu eps i) ∧
      (m.plasticity = false → ∀ old new gp, ∃ r, getStress3D s.obj.cfg old new ex ey ez gp eps = .ok r ∧
        r.nl = false ∧ r.stress = hooke m.lambda m.mu eps) := by
  obtain ⟨t, ht, -, hm⟩ := material_eq ha h he
  obtain ⟨n1, n2⟩ := hnu t ht
  refine ⟨_, hm, fun hd => ?_, fun hp old new gp => ?_⟩
  · have hz : ez = 0 := he.2.2.1 hd
    subst hz
    refine ⟨_, by unfold getStress2D; rw [hm]; rfl, fun i hi => ?_⟩
    rw [accum_sum, zero_add]
    refine ctan2D_planeStrain ?_ eps hi
    refine ⟨?_, ?_, ?_, ?_⟩
    · show 1 + a.params (10 * t + 1) ≠ 0
      exact fun h => n1 (by linarith)
    · show 1 - 2 * a.params (10 * t + 1) ≠ 0
      exact fun h => n2 (by linarith)
    · simp [mkMaterial]
    · simp [mkMaterial]
  · refine ⟨_, by unfold getStress3D; simp only [hm, M_bind_ok', hp]; rfl, rfl, ?_⟩
    exact elasticStress3D_hooke _ eps

/-- The materials of the layered example: `E = 10`, `nu = 1/4` has `lambda = mu = 4`; the second has
`E = 30`, `nu = 1/5`. -/
example : ∃ s, Reach exEnv exArgs3 exJunk exCalls s ∧ (s.obj.cfg.mats 0).lambda = 4 ∧
    (s.obj.cfg.mats 0).mu = 4 ∧ (s.obj.cfg.mats 0).k = 20 / 3 ∧ (s.obj.cfg.mats 1).mu = 25 / 2 ∧
    (∀ i, i < 2 → 0 < exArgs3.params (10 * i) ∧ 0 < exArgs3.params (10 * i + 1) ∧
      exArgs3.params (10 * i + 1) < 1 / 2) ∧ IsElem exArgs3 2 1 1 ∧ IsElem exArgs2 2 1 0 := by
  obtain ⟨s, hs⟩ := reach_exists exEnv_quick exArgs3_ok exJunk exCalls
  obtain ⟨et, ct, hc⟩ := (reach_built exArgs3_ok hs).1.eq
  refine ⟨s, hs, ?_, ?_, ?_, ?_, ?_, ⟨by decide, by decide, by decide, by decide⟩,
    ⟨by decide, by decide, by decide, by decide⟩⟩
  · rw [hc]; norm_num [mkCfg, mkMaterial, exArgs3]
  · rw [hc]; norm_num [mkCfg, mkMaterial, exArgs3]
  · rw [hc]; norm_num [mkCfg, mkMaterial, exArgs3]
  · rw [hc]; norm_num [mkCfg, mkMaterial, exArgs3]
  · intro i hi; obtain rfl | rfl : i = 0 ∨ i = 1 := by omega
    all_goals norm_num [exArgs3]

/-- What a caller sees of a sequence of calls: the returned values and the files. -/
noncomputable def observe (env : Env ℝ) : List (Call ℝ) → ObjFiles ℝ → M (List (Ret ℝ) × Files ℝ)
  | [], s => pure ([], s.files)
  | k :: l, s => do
    let r ← step env s k
    let t ← observe env l r.state
    pure (r.ret :: t.1, t.2)

/-- The same arguments with every damage material declared linear. -/
def asLinear (a : Args ℝ) : Args ℝ :=
  { a with matTypes := fun i => if a.matTypes i = 2 then 0 else a.matTypes i }

theorem observe_undamaged (env : Env ℝ) (l : List (Call ℝ)) (s : ObjFiles ℝ) :
    observe env l s.undamaged = observe env l s := by
  induction l generalizing s with
  | nil => rfl
  | cons k l ih =>
    unfold observe
    rw [step_undamaged]
    cases step env s k with
    | error e => rfl
    | ok r =>
      show (observe env l r.state.undamaged >>= _) = _
      rw [ih]; rfl

/-- The constructor after the element types are known. -/
noncomputable def ctorRest (env : Env ℝ) (j : Junk ℝ) (f : Files ℝ) (c : Cfg ℝ) : M (ObjFiles ℝ) :=
  (if c.dim = 2 then ellInit2D j.cols j.vals c.dim c.nx c.ny
    else ellInit3D j.cols j.vals c.dim c.nx c.ny c.nz) >>= fun A =>
  calcCtanLin env c j.ctanLin (startWork c j A) >>= fun r =>
  pure { obj := { cfg := { c with ctanLin := r.ctan }, work := r.work, gauss := [], header := false }
         files := ctorFiles { c with ctanLin := r.ctan } f }

theorem constructF_form (env : Env ℝ) (a : Args ℝ) (j : Junk ℝ) (f : Files ℝ) :
    constructF env a j f = if ¬ (a.dim = 2 ∨ a.dim = 3) then .error .abort
      else if ¬ (a.microType = 0 ∨ a.microType = 1) then .error .uninit
      else fillElemType (mkCfg a j ⟨0, j.elemType⟩)
          ⟨(mkCfg a j ⟨0, j.elemType⟩).nelem, j.elemType⟩ >>= fun et => ctorRest env j f (mkCfg a j et) := by
  unfold constructF construct
  split
  · rfl
  split
  · rfl
  simp only
  cases fillElemType (mkCfg a j ⟨0, j.elemType⟩)
    ⟨(mkCfg a j ⟨0, j.elemType⟩).nelem, j.elemType⟩ with
  | error e => rfl
  | ok et =>
    simp only [M_bind_ok']
    unfold ctorRest
    split
    · cases ellInit2D j.cols j.vals (mkCfg a j et).dim (mkCfg a j et).nx (mkCfg a j et).ny with
      | error e => rfl
      | ok A =>
        simp only [M_bind_ok']
        show (calcCtanLin env (mkCfg a j et) j.ctanLin (startWork (mkCfg a j et) j A) >>= _) >>= _ = _
        cases calcCtanLin env (mkCfg a j et) j.ctanLin (startWork (mkCfg a j et) j A) <;> rfl
    · cases ellInit3D j.cols j.vals (mkCfg a j et).dim (mkCfg a j et).nx (mkCfg a j et).ny
        (mkCfg a j et).nz with
      | error e => rfl
      | ok A =>
        simp only [M_bind_ok']
        show (calcCtanLin env (mkCfg a j et) j.ctanLin (startWork (mkCfg a j et) j A) >>= _) >>= _ = _
        cases calcCtanLin env (mkCfg a j et) j.ctanLin (startWork (mkCfg a j et) j A) <;> rfl

theorem ctorRest_undamaged (env : Env ℝ) (j : Junk ℝ) (f : Files ℝ) (c : Cfg ℝ) :
    ctorRest env j f c.undamaged = (ctorRest env j f c).map ObjFiles.undamaged := by
  unfold ctorRest
  rw [calcCtanLin_undamaged]
  show ((if c.dim = 2 then ellInit2D j.cols j.vals c.dim c.nx c.ny
    else ellInit3D j.cols j.vals c.dim c.nx c.ny c.nz) >>= _) = _
  cases (if c.dim = 2 then ellInit2D j.cols j.vals c.dim c.nx c.ny
    else ellInit3D j.cols j.vals c.dim c.nx c.ny c.nz) with
  | error e => rfl
  | ok A =>
    simp only [M_bind_ok']
    show (calcCtanLin env c j.ctanLin (startWork c j A) >>= _) = _
    cases calcCtanLin env c j.ctanLin (startWork c j A) <;> rfl

theorem construct_asLinear (env : Env ℝ) (a : Args ℝ) (j : Junk ℝ) (f : Files ℝ) :
    (constructF env (asLinear a) j f).map ObjFiles.undamaged
      = (constructF env a j f).map ObjFiles.undamaged := by
  have hcfg : ∀ et, (mkCfg (asLinear a) j et).undamaged = (mkCfg a j et).undamaged := by
    intro et
    have : ∀ i, ((mkCfg (asLinear a) j et).mats i).undamaged = ((mkCfg a j et).mats i).undamaged := by
      intro i
      simp only [mkCfg, asLinear]
      split
      · simp only [mkMaterial, Material.undamaged]
        by_cases h : a.matTypes i = 2 <;> simp [h]
      · rfl
    unfold Cfg.undamaged
    rw [show (fun i => ((mkCfg (asLinear a) j et).mats i).undamaged)
      = fun i => ((mkCfg a j et).mats i).undamaged from funext this]
    rfl
  rw [constructF_form, constructF_form]
  show (if ¬ (a.dim = 2 ∨ a.dim = 3) then _ else if ¬ (a.microType = 0 ∨ a.microType = 1) then _
    else fillElemType (mkCfg a j ⟨0, j.elemType⟩) ⟨(mkCfg a j ⟨0, j.elemType⟩).nelem, j.elemType⟩ >>= _
      : M (ObjFiles ℝ)).map _ = _
  split
  · rfl
  split
  · rfl
  cases fillElemType (mkCfg a j ⟨0, j.elemType⟩) ⟨(mkCfg a j ⟨0, j.elemType⟩).nelem, j.elemType⟩ with
  | error e => rfl
  | ok et =>
    show (ctorRest env j f (mkCfg (asLinear a) j et)).map _ = (ctorRest env j f (mkCfg a j et)).map _
    rw [← ctorRest_undamaged, ← ctorRest_undamaged, hcfg]

/-- **C49**: a material of type 2 (damage) is indistinguishable from a linear one: replacing 2 by 0
in `mat_types` changes no value any sequence of calls returns and no file it writes. -/
theorem C49_damage (env : Env ℝ) (a : Args ℝ) (j : Junk ℝ) (f : Files ℝ) (calls : List (Call ℝ)) :
    (constructF env a j f >>= observe env calls)
      = (constructF env (asLinear a) j f >>= observe env calls) := by
  have h : ∀ x : M (ObjFiles ℝ), (x >>= observe env calls)
      = (x.map ObjFiles.undamaged >>= observe env calls) := fun x => by
    cases x with
    | error e => rfl
    | ok s => exact (observe_undamaged env calls s).symm
  rw [h, h (constructF env (asLinear a) j f), construct_asLinear]

/-- A cell of damage materials. -/
noncomputable def exArgsD : Args ℝ := { exArgs3 with matTypes := fun _ => 2 }

theorem exArgsD_ok : exArgsD.Ok := by
  refine ⟨Or.inr rfl, Or.inr rfl, ?_, ?_, fun _ => ?_⟩ <;> simp [exArgsD, exArgs3]

/-- With a damage material the constructor does store a raised damage flag, and the run of the example
returns: the equation of `C49_damage` is between two results, not between two faults. -/
example : ((mkCfg exArgsD exJunk ⟨0, fun _ => 0⟩).mats 1).damage = true ∧
    ∃ s, Reach exEnv exArgsD exJunk exCalls s :=
  ⟨by simp [mkCfg, mkMaterial, exArgsD], reach_exists exEnv_quick exArgsD_ok exJunk exCalls⟩

end Verif.Props
