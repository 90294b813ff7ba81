import Verif.Model.Assembly
import Verif.Lemmas.Loop

/-! `get_material`, `gather` and `get_stress3D` as functions, for every scalar type. -/

namespace Verif

variable {α : Type} [Scalar α]

theorem gather_eq {n : Nat} {p : Buf α} {ix : Nat → Nat} (h : ∀ i, i < n → ix i < p.size) :
    gather n p ix = .ok (fun i => if i < n then p.val (ix i) else 0) := by
  unfold gather
  obtain ⟨s, h1, h2⟩ := loop_inv (n := n) (s := fun _ => (0 : α))
    (f := fun i (a : Nat → α) => do
      let v ← p.read (ix i)
      pure (fun j => if j = i then v else a j))
    (P := fun k a => a = fun i => if i < k then p.val (ix i) else 0)
    (by funext i; simp) (by
      intro i a hi ha
      refine ⟨_, by rw [Buf.read_ok (h i hi)]; rfl, ?_⟩
      funext j
      subst ha
      by_cases hj : j = i
      · subst hj; simp
      · simp only [hj, if_false]
        by_cases hl : j < i
        · rw [if_pos hl, if_pos (by omega)]
        · rw [if_neg hl, if_neg (by omega)])
  rw [h1, h2]

/-- The material of element `e`. -/
def matOf (c : Cfg α) (e : Nat) : Material α := c.mats (if c.elemType.val e = 0 then 0 else 1)

theorem getMaterial_eq {c : Cfg α} {e : Nat} (ht : c.microType = 0 ∨ c.microType = 1)
    (he : e < c.elemType.size) : getMaterial c e = .ok (matOf c e) := by
  unfold getMaterial matOf
  rw [if_pos ht, Buf.read_ok he]; rfl

/-- Plastic strain stored for a Gauss point. -/
def epsPAt (v : Buf α) (e gp : Nat) : Nat → α := fun i => if i < 6 then v.val (intvarIx e gp i) else 0

/-- Hardening variable stored for a Gauss point. -/
def alphaAt (v : Buf α) (e gp : Nat) : α := v.val (intvarIx e gp 6)

/-- `vars_new` after a plastic evaluation of Gauss point `gp` of element `e`. -/
def putVars (e gp : Nat) (r : PlasticOut α) (v : Buf α) : Buf α :=
  ⟨v.size, fun k => if k / 7 = e * 8 + gp then (if k % 7 = 6 then r.alpha else r.epsP (k % 7))
    else v.val k⟩

theorem intvarIx_eq (e gp i : Nat) : intvarIx e gp i = (e * 8 + gp) * 7 + i := by
  unfold intvarIx; ring

theorem intvarIx_lt {e gp i n : Nat} (he : e < n) (hg : gp < 8) (hi : i < 7) :
    intvarIx e gp i < n * 8 * 7 := by
  rw [intvarIx_eq]
  exact mul_add_lt (mul_add_lt he hg) hi

theorem storeVars_eq {e gp : Nat} {r : PlasticOut α} {v : Buf α} (h : intvarIx e gp 6 < v.size) :
    (loop 6 (fun i v => v.write (intvarIx e gp i) (r.epsP i)) v).bind
      (fun v => v.write (intvarIx e gp 6) r.alpha) = .ok (putVars e gp r v) := by
  have hb : SetTo v.size (fun k => if k % 7 = 6 then r.alpha else r.epsP (k % 7))
      (fun k => (∃ i, i < 6 ∧ k = intvarIx e gp i) ∨ k = intvarIx e gp 6)
      (fun v => (loop 6 (fun i v => v.write (intvarIx e gp i) (r.epsP i)) v).bind
        (fun v => v.write (intvarIx e gp 6) r.alpha)) := by
    refine SetTo.bind (SetTo.loop fun i hi => SetTo.write ?_ ?_) (SetTo.write h ?_)
    · rw [intvarIx_eq] at h ⊢; omega
    · rw [intvarIx_eq, mul_add_mod' (by omega : i < 7), if_neg (by omega)]
    · rw [intvarIx_eq, mul_add_mod' (by omega : 6 < 7), if_pos rfl]
  obtain ⟨v', h1, h2, h3, h4⟩ := hb v rfl
  simp only at h1
  rw [h1]
  congr 1
  refine Buf.ext' h2 fun k => ?_
  by_cases hk : k / 7 = e * 8 + gp
  · have hS : (∃ i, i < 6 ∧ k = intvarIx e gp i) ∨ k = intvarIx e gp 6 := by
      simp only [intvarIx_eq]
      by_cases h6 : k % 7 = 6
      · right; omega
      · left; exact ⟨k % 7, by omega, by omega⟩
    rw [h3 k hS]; simp [putVars, hk]
  · have hS : ¬ ((∃ i, i < 6 ∧ k = intvarIx e gp i) ∨ k = intvarIx e gp 6) := by
      simp only [intvarIx_eq]
      rintro (⟨i, hi, hh⟩ | hh) <;> omega
    rw [h4 k hS]; simp [putVars, hk]

/-- The result of `get_stress3D`. -/
def stressOut (m : Material α) (varsOld : Buf α) (e gp : Nat) (eps : Nat → α) (v : Buf α) :
    StressOut α :=
  if m.plasticity = true then
    let r := plasticStep m eps (epsPAt varsOld e gp) (alphaAt varsOld e gp)
    { nl := r.nl, stress := r.stress, varsNew := putVars e gp r v }
  else { nl := false, stress := elasticStress3D m eps, varsNew := v }

theorem getStress3D_eq {c : Cfg α} {varsOld varsNew : Buf α} {ex ey ez gp : Nat} {eps : Nat → α}
    (ht : c.microType = 0 ∨ c.microType = 1)
    (he : gloElem3D c.nx c.ny ex ey ez < c.elemType.size)
    (hO : intvarIx (gloElem3D c.nx c.ny ex ey ez) gp 6 < varsOld.size)
    (hN : intvarIx (gloElem3D c.nx c.ny ex ey ez) gp 6 < varsNew.size) :
    getStress3D c varsOld varsNew ex ey ez gp eps =
      .ok (stressOut (matOf c (gloElem3D c.nx c.ny ex ey ez)) varsOld
        (gloElem3D c.nx c.ny ex ey ez) gp eps varsNew) := by
  unfold getStress3D stressOut
  simp only
  rw [getMaterial_eq ht he]
  simp only [M_bind_ok']
  by_cases hp : (matOf c (gloElem3D c.nx c.ny ex ey ez)).plasticity = true
  · simp only [hp, if_true]
    rw [gather_eq (by intro i hi; rw [intvarIx_eq] at hO ⊢; omega)]
    simp only [M_bind_ok']
    rw [Buf.read_ok hO]
    simp only [M_bind_ok']
    have hs := storeVars_eq (r := plasticStep (matOf c (gloElem3D c.nx c.ny ex ey ez)) eps
      (epsPAt varsOld (gloElem3D c.nx c.ny ex ey ez) gp)
      (alphaAt varsOld (gloElem3D c.nx c.ny ex ey ez) gp)) hN
    rw [show (fun i => if i < 6 then varsOld.val (intvarIx (gloElem3D c.nx c.ny ex ey ez) gp i)
      else 0) = epsPAt varsOld (gloElem3D c.nx c.ny ex ey ez) gp from rfl,
      show varsOld.val (intvarIx (gloElem3D c.nx c.ny ex ey ez) gp 6)
        = alphaAt varsOld (gloElem3D c.nx c.ny ex ey ez) gp from rfl]
    obtain ⟨v1, h1⟩ : ∃ v1, loop 6 (fun i v => v.write (intvarIx (gloElem3D c.nx c.ny ex ey ez) gp i)
        ((plasticStep (matOf c (gloElem3D c.nx c.ny ex ey ez)) eps
          (epsPAt varsOld (gloElem3D c.nx c.ny ex ey ez) gp)
          (alphaAt varsOld (gloElem3D c.nx c.ny ex ey ez) gp)).epsP i)) varsNew = .ok v1 := by
      cases hl : loop 6 (fun i v => v.write (intvarIx (gloElem3D c.nx c.ny ex ey ez) gp i)
        ((plasticStep (matOf c (gloElem3D c.nx c.ny ex ey ez)) eps
          (epsPAt varsOld (gloElem3D c.nx c.ny ex ey ez) gp)
          (alphaAt varsOld (gloElem3D c.nx c.ny ex ey ez) gp)).epsP i)) varsNew with
      | ok v => exact ⟨v, rfl⟩
      | error e => rw [hl] at hs; cases hs
    rw [h1] at hs ⊢
    simp only [M_bind_ok, M_bind_ok'] at hs ⊢
    rw [hs]; rfl
  · simp only [hp]; rfl

end Verif
