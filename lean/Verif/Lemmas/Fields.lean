import Verif.Lemmas.FeMat

/-! # Evaluation of `calc_fields` for every scalar type -/

namespace Verif
open Spec

variable {α : Type} [Scalar α] {c : Cfg α}

/-- Row `e` of a table with rows of `n` entries is overwritten. -/
def putRow (n e : Nat) (f : Nat → α) (b : Buf α) : Buf α :=
  ⟨b.size, fun k => if k / n = e then f (k % n) else b.val k⟩

theorem fieldStore_eq {nv e : Nat} (h0 : 0 < nv) (vol : α) (r : FieldAux α) {s : FieldState α}
    (h1 : e * nv + nv ≤ s.strain.size) (h2 : e * nv + nv ≤ s.stress.size) :
    fieldStore nv e vol r s = .ok
      { strain := putRow nv e (fun v => r.strain v / vol) s.strain
        stress := putRow nv e (fun v => r.stress v / vol) s.stress
        varsNew := r.varsNew } := by
  unfold fieldStore
  have key : ∀ n, n ≤ nv → loop n (fun v (s : FieldState α) => do
      let a ← s.strain.write (e * nv + v) (r.strain v / vol)
      let b ← s.stress.write (e * nv + v) (r.stress v / vol)
      pure { s with strain := a, stress := b }) { s with varsNew := r.varsNew } = .ok
      { strain := ⟨s.strain.size, fun k => if k / nv = e ∧ k % nv < n then r.strain (k % nv) / vol
          else s.strain.val k⟩
        stress := ⟨s.stress.size, fun k => if k / nv = e ∧ k % nv < n then r.stress (k % nv) / vol
          else s.stress.val k⟩
        varsNew := r.varsNew } := by
    intro n
    induction n with
    | zero => intro _; simp [loop]
    | succ n ih =>
      intro hn
      have hw : ∀ (b : Buf α) (f : Nat → α), (⟨b.size, fun k => if k = e * nv + n then f n else
          if k / nv = e ∧ k % nv < n then f (k % nv) else b.val k⟩ : Buf α)
          = ⟨b.size, fun k => if k / nv = e ∧ k % nv < n + 1 then f (k % nv) else b.val k⟩ := by
        intro b f
        congr 1
        funext k
        have hk := Nat.div_add_mod k nv
        have hm := Nat.mod_lt k h0
        by_cases h : k = e * nv + n
        · rw [if_pos h, h, mul_add_div' hn, mul_add_mod' hn, if_pos ⟨rfl, by omega⟩]
        · rw [if_neg h]
          by_cases h' : k / nv = e ∧ k % nv < n
          · rw [if_pos h', if_pos ⟨h'.1, by omega⟩]
          · rw [if_neg h', if_neg]
            rintro ⟨h3, h4⟩
            have : k % nv = n := by
              by_contra hne
              exact h' ⟨h3, by omega⟩
            apply h
            rw [← hk, h3, this, Nat.mul_comm]
      rw [loop_succ, ih (by omega)]
      simp only [M_bind_ok]
      rw [Buf.write_ok _ (by show e * nv + n < s.strain.size; omega), M_bind_ok',
        Buf.write_ok _ (by show e * nv + n < s.stress.size; omega), M_bind_ok']
      simp only [M_pure]
      rw [← hw s.strain (fun v => r.strain v / vol), ← hw s.stress (fun v => r.stress v / vol)]
  rw [key nv le_rfl]
  unfold putRow
  simp only [Nat.mod_lt _ h0, and_true]

theorem putRow_puts {n e : Nat} {f : Nat → α} {cv : Nat → α}
    (h : ∀ k, k / n = e → f (k % n) = cv k) : Puts (fun k => k / n = e) cv (putRow n e f) := by
  intro v k
  unfold putRow
  constructor
  · intro hk; simp only [hk, if_true]; exact h k hk
  · intro hk; simp only [hk, if_false]

/-- Sums over the Gauss points of an element. -/
def gpSum (n : Nat) (f : Nat → Nat → α) (wg : α) (v : Nat) : α :=
  accum n (fun gp (s : Nat → α) v => s v + f gp v * wg) (fun _ => 0) v

/-- Element strain of `calc_fields`, 3D. -/
def fieldEps3 (c : Cfg α) (u : Nat → α) (ex ey ez v : Nat) : α :=
  gpSum 8 (fun gp v => strain3 c u ex ey ez gp v) (wg3D c) v / (c.dx * c.dy * c.dz)

/-- Element stress of `calc_fields`, 3D. -/
def fieldSig3 (c : Cfg α) (u : Nat → α) (vo : Buf α) (ex ey ez v : Nat) : α :=
  gpSum 8 (fun gp v => gpSig c u vo ex ey ez gp v) (wg3D c) v / (c.dx * c.dy * c.dz)

/-- Element strain of `calc_fields`, 2D. -/
def fieldEps2 (c : Cfg α) (u : Nat → α) (ex ey v : Nat) : α :=
  gpSum 4 (fun gp v => strain2 c u ex ey gp v) (wg2D c) v / (c.dx * c.dy)

/-- Element stress of `calc_fields`, 2D. -/
def fieldSig2 (c : Cfg α) (u : Nat → α) (ex ey v : Nat) : α :=
  gpSum 4 (fun gp v => sig2 (matOf c (c.el ex ey 0)) (strain2 c u ex ey gp) v) (wg2D c) v
    / (c.dx * c.dy)

theorem row_le {e n k : Nat} (h : e < n) : e * k + k ≤ n * k := by
  have := Nat.mul_le_mul_right k (show e + 1 ≤ n from h)
  rw [Nat.succ_mul] at this
  exact this

theorem fieldElem3D_eq (hc : c.Ok) (hd : c.dim = 3) {u vo : Buf α} {ex ey ez : Nat}
    {s : FieldState α} (hu : u.size = c.nx * c.ny * c.nz * 3) (ho : vo.size = c.numIntVars)
    (hn : s.varsNew.size = c.numIntVars) (h1 : s.strain.size = c.nelem * 6)
    (h2 : s.stress.size = c.nelem * 6)
    (hx : ex < c.nx - 1) (hy : ey < c.ny - 1) (hz : ez < c.nz - 1) :
    fieldElem3D c u vo ex ey ez s = .ok
      { strain := putRow 6 (c.el ex ey ez) (fieldEps3 c u.val ex ey ez) s.strain
        stress := putRow 6 (c.el ex ey ez) (fieldSig3 c u.val vo ex ey ez) s.stress
        varsNew := elemPut c u.val vo ex ey ez s.varsNew } := by
  unfold fieldElem3D
  obtain ⟨h3, -⟩ := loop_pure_inv (n := 8)
    (P := fun s : FieldAux α => s.varsNew.size = c.numIntVars)
    (f := fun gp (a : FieldAux α) => do
      let eps ← getStrain3D c u ex ey ez gp
      let sig ← getStress3D c vo a.varsNew ex ey ez gp eps
      pure { strain := fun v => a.strain v + eps v * wg3D c
             stress := fun v => a.stress v + sig.stress v * wg3D c
             varsNew := sig.varsNew })
    (g := fun gp a =>
      { strain := fun v => a.strain v + strain3 c u.val ex ey ez gp v * wg3D c
        stress := fun v => a.stress v + gpSig c u.val vo ex ey ez gp v * wg3D c
        varsNew := gpPut c u.val vo ex ey ez gp a.varsNew })
    (by
      intro gp s hg hs
      rw [getStrain3D_eq hu hx hy hz, M_bind_ok', getStress3D_pure hc hd hx hy hz hg ho hs]
      exact ⟨rfl, by simpa using hs⟩)
    { strain := fun _ => 0, stress := fun _ => 0, varsNew := s.varsNew } hn
  have he : c.el ex ey ez < c.nelem := by
    unfold Cfg.nelem; rw [if_neg (by omega)]; exact gloElem3D_lt hx hy hz
  rw [h3, M_bind_ok', fieldStore_eq (by omega) _ _ (by rw [h1]; exact row_le he)
    (by rw [h2]; exact row_le he)]
  rfl

theorem fieldElem2D_eq (hc : c.Ok) (hd : c.dim = 2) {u : Buf α} {ex ey : Nat}
    {s : FieldState α} (hu : u.size = c.nx * c.ny * 2)
    (h1 : s.strain.size = c.nelem * 3) (h2 : s.stress.size = c.nelem * 3)
    (hx : ex < c.nx - 1) (hy : ey < c.ny - 1) :
    fieldElem2D c u ex ey s = .ok
      { strain := putRow 3 (c.el ex ey 0) (fieldEps2 c u.val ex ey) s.strain
        stress := putRow 3 (c.el ex ey 0) (fieldSig2 c u.val ex ey) s.stress
        varsNew := s.varsNew } := by
  unfold fieldElem2D
  obtain ⟨h3, -⟩ := loop_pure_inv (n := 4) (P := fun _ : FieldAux α => True)
    (f := fun gp (a : FieldAux α) => do
      let eps ← getStrain2D c u ex ey gp
      let sig ← getStress2D c ex ey eps
      pure { a with strain := fun v => a.strain v + eps v * wg2D c
                    stress := fun v => a.stress v + sig v * wg2D c })
    (g := fun gp a =>
      { a with
        strain := fun v => a.strain v + strain2 c u.val ex ey gp v * wg2D c
        stress := fun v => a.stress v
          + sig2 (matOf c (c.el ex ey 0)) (strain2 c u.val ex ey gp) v * wg2D c })
    (by
      intro gp s hg hs
      rw [getStrain2D_eq hu hx hy, M_bind_ok', getStress2D_pure hc hd hx hy]
      exact ⟨rfl, trivial⟩)
    { strain := fun _ => 0, stress := fun _ => 0, varsNew := s.varsNew } trivial
  have he : c.el ex ey 0 < c.nelem := by
    unfold Cfg.nelem; rw [if_pos hd]; exact gloElem2D_lt hx hy
  rw [h3, M_bind_ok', fieldStore_eq (by omega) _ _ (by rw [h1]; exact row_le he)
    (by rw [h2]; exact row_le he)]
  rfl

theorem Puts.accum3 {a b d : Nat} {S : Nat → Nat → Nat → Nat → Prop} {cv : Nat → α}
    {g : Nat → Nat → Nat → Buf α → Buf α}
    (h : ∀ i j k, i < a → j < b → k < d → Puts (S i j k) cv (g i j k)) :
    Puts (fun q => ∃ i, i < a ∧ ∃ j, j < b ∧ ∃ k, k < d ∧ S i j k q) cv
      (fun v => accum3 a b d g v) :=
  Puts.accum fun i hi => Puts.accum fun j hj => Puts.accum fun k hk => h i j k hi hj hk

theorem Puts.accum2 {a b : Nat} {S : Nat → Nat → Nat → Prop} {cv : Nat → α}
    {g : Nat → Nat → Buf α → Buf α}
    (h : ∀ i j, i < a → j < b → Puts (S i j) cv (g i j)) :
    Puts (fun q => ∃ i, i < a ∧ ∃ j, j < b ∧ S i j q) cv (fun v => accum2 a b g v) :=
  Puts.accum fun i hi => Puts.accum fun j hj => h i j hi hj

/-- The three-dimensional `calc_fields`. -/
theorem calcFields3_eq (hc : c.Ok) (hd : c.dim = 3) {w : Work α} (hw : w.Ok c) :
    ∃ eps sig, calcFields c w = .ok { w with
        elemStrain := eps, elemStress := sig, varsNew := allPut c w.u.val w.varsOld w.varsNew } ∧
      eps.size = c.nelem * c.nvoi ∧ sig.size = c.nelem * c.nvoi ∧
      ∀ ex ey ez v, ex < c.nx - 1 → ey < c.ny - 1 → ez < c.nz - 1 → v < 6 →
        eps.val (c.el ex ey ez * 6 + v) = fieldEps3 c w.u.val ex ey ez v ∧
        sig.val (c.el ex ey ez * 6 + v) = fieldSig3 c w.u.val w.varsOld ex ey ez v := by
  have hv : c.nvoi = 6 := by unfold Cfg.nvoi; rw [if_neg (by omega)]
  unfold calcFields
  rw [if_neg (by omega), if_pos hd]
  let G : Nat → Nat → Nat → FieldState α → FieldState α := fun ex ey ez s =>
      { strain := putRow 6 (c.el ex ey ez) (fieldEps3 c w.u.val ex ey ez) s.strain
        stress := putRow 6 (c.el ex ey ez) (fieldSig3 c w.u.val w.varsOld ex ey ez) s.stress
        varsNew := elemPut c w.u.val w.varsOld ex ey ez s.varsNew }
  obtain ⟨h1, h2⟩ := loop3_pure (a := c.nx - 1) (b := c.ny - 1) (c := c.nz - 1)
    (P := fun s : FieldState α => s.varsNew.size = c.numIntVars ∧ s.strain.size = c.nelem * 6 ∧
      s.stress.size = c.nelem * 6)
    (f := fun ex ey ez s => fieldElem3D c w.u w.varsOld ex ey ez s) (g := G)
    (by
      rintro ex ey ez s hx hy hz ⟨a1, a2, a3⟩
      exact ⟨fieldElem3D_eq hc hd (hw.u3 hd) hw.varsOld a1 a2 a3 hx hy hz, by simpa [G] using a1,
        a2, a3⟩)
    { strain := w.elemStrain, stress := w.elemStress, varsNew := w.varsNew }
    ⟨hw.varsNew, by rw [hw.elemStrain, hv], by rw [hw.elemStress, hv]⟩
  rw [h1, M_bind_ok']
  have e1 := accum3_proj (a := c.nx - 1) (b := c.ny - 1) (c := c.nz - 1) FieldState.varsNew (g := G)
    (h := fun ex ey ez v => elemPut c w.u.val w.varsOld ex ey ez v) (fun _ _ _ _ => rfl)
    { strain := w.elemStrain, stress := w.elemStress, varsNew := w.varsNew }
  have e2 := accum3_proj (a := c.nx - 1) (b := c.ny - 1) (c := c.nz - 1) FieldState.strain (g := G)
    (h := fun ex ey ez v => putRow 6 (c.el ex ey ez) (fieldEps3 c w.u.val ex ey ez) v)
    (fun _ _ _ _ => rfl)
    { strain := w.elemStrain, stress := w.elemStress, varsNew := w.varsNew }
  have e3 := accum3_proj (a := c.nx - 1) (b := c.ny - 1) (c := c.nz - 1) FieldState.stress (g := G)
    (h := fun ex ey ez v => putRow 6 (c.el ex ey ez) (fieldSig3 c w.u.val w.varsOld ex ey ez) v)
    (fun _ _ _ _ => rfl)
    { strain := w.elemStrain, stress := w.elemStress, varsNew := w.varsNew }
  refine ⟨_, _, by rw [e1]; rfl, by rw [h2.2.1, hv], by rw [h2.2.2, hv], ?_⟩
  intro ex ey ez v hx hy hz hv6
  have dec : ∀ (f : Nat → Nat → Nat → Nat → α) (ex ey ez : Nat), ex < c.nx - 1 → ey < c.ny - 1 →
      ez < c.nz - 1 → ∀ k, k / 6 = c.el ex ey ez → f ex ey ez (k % 6)
        = (fun k => f (k / 6 % (c.nx - 1)) (k / 6 / (c.nx - 1) % (c.ny - 1))
          (k / 6 / (c.nx - 1) / (c.ny - 1)) (k % 6)) k := by
    intro f ex ey ez hx hy hz k hk
    obtain ⟨d1, d2, d3⟩ := gloElem_decode (ez := ez) hx hy
    simp only [hk]
    rw [d1, d2, d3]
  have p1 := (Puts.accum3 (a := c.nx - 1) (b := c.ny - 1) (d := c.nz - 1) fun ex ey ez hx hy hz =>
    putRow_puts (n := 6) (e := c.el ex ey ez)
      (dec (fieldEps3 c w.u.val) ex ey ez hx hy hz)) w.elemStrain (c.el ex ey ez * 6 + v)
  have p2 := (Puts.accum3 (a := c.nx - 1) (b := c.ny - 1) (d := c.nz - 1) fun ex ey ez hx hy hz =>
    putRow_puts (n := 6) (e := c.el ex ey ez)
      (dec (fieldSig3 c w.u.val w.varsOld) ex ey ez hx hy hz)) w.elemStress (c.el ex ey ez * 6 + v)
  have hq : (c.el ex ey ez * 6 + v) / 6 = c.el ex ey ez := mul_add_div' hv6
  have hr : (c.el ex ey ez * 6 + v) % 6 = v := mul_add_mod' hv6
  obtain ⟨d1, d2, d3⟩ := gloElem_decode (ez := ez) hx hy
  rw [e2, e3]
  constructor
  · rw [p1.1 ⟨ex, hx, ey, hy, ez, hz, hq⟩]
    simp only [hq, hr]
    rw [d1, d2, d3]
  · rw [p2.1 ⟨ex, hx, ey, hy, ez, hz, hq⟩]
    simp only [hq, hr]
    rw [d1, d2, d3]

/-- The two-dimensional `calc_fields`. -/
theorem calcFields2_eq (hc : c.Ok) (hd : c.dim = 2) {w : Work α} (hw : w.Ok c) :
    ∃ eps sig, calcFields c w = .ok { w with elemStrain := eps, elemStress := sig } ∧
      eps.size = c.nelem * c.nvoi ∧ sig.size = c.nelem * c.nvoi ∧
      ∀ ex ey v, ex < c.nx - 1 → ey < c.ny - 1 → v < 3 →
        eps.val (c.el ex ey 0 * 3 + v) = fieldEps2 c w.u.val ex ey v ∧
        sig.val (c.el ex ey 0 * 3 + v) = fieldSig2 c w.u.val ex ey v := by
  have hv : c.nvoi = 3 := by unfold Cfg.nvoi; rw [if_pos hd]
  unfold calcFields
  rw [if_pos hd]
  let G : Nat → Nat → FieldState α → FieldState α := fun ex ey s =>
      { strain := putRow 3 (c.el ex ey 0) (fieldEps2 c w.u.val ex ey) s.strain
        stress := putRow 3 (c.el ex ey 0) (fieldSig2 c w.u.val ex ey) s.stress
        varsNew := s.varsNew }
  obtain ⟨h1, h2⟩ := loop2_pure (a := c.nx - 1) (b := c.ny - 1)
    (P := fun s : FieldState α => s.varsNew = w.varsNew ∧ s.strain.size = c.nelem * 3 ∧
      s.stress.size = c.nelem * 3)
    (f := fun ex ey s => fieldElem2D c w.u ex ey s) (g := G)
    (by
      rintro ex ey s hx hy ⟨a1, a2, a3⟩
      exact ⟨fieldElem2D_eq hc hd (hw.u2 hc hd) a2 a3 hx hy, a1, a2, a3⟩)
    { strain := w.elemStrain, stress := w.elemStress, varsNew := w.varsNew }
    ⟨rfl, by rw [hw.elemStrain, hv], by rw [hw.elemStress, hv]⟩
  rw [h1, M_bind_ok']
  have e2 := accum2_proj (a := c.nx - 1) (b := c.ny - 1) FieldState.strain (g := G)
    (h := fun ex ey v => putRow 3 (c.el ex ey 0) (fieldEps2 c w.u.val ex ey) v)
    (fun _ _ _ => rfl)
    { strain := w.elemStrain, stress := w.elemStress, varsNew := w.varsNew }
  have e3 := accum2_proj (a := c.nx - 1) (b := c.ny - 1) FieldState.stress (g := G)
    (h := fun ex ey v => putRow 3 (c.el ex ey 0) (fieldSig2 c w.u.val ex ey) v)
    (fun _ _ _ => rfl)
    { strain := w.elemStrain, stress := w.elemStress, varsNew := w.varsNew }
  refine ⟨_, _, by rw [h2.1]; rfl, by rw [h2.2.1, hv], by rw [h2.2.2, hv], ?_⟩
  intro ex ey v hx hy hv3
  have dec : ∀ (f : Nat → Nat → Nat → α) (ex ey : Nat), ex < c.nx - 1 → ey < c.ny - 1 →
      ∀ k, k / 3 = c.el ex ey 0 → f ex ey (k % 3)
        = (fun k => f (k / 3 % (c.nx - 1)) (k / 3 / (c.nx - 1) % (c.ny - 1)) (k % 3)) k := by
    intro f ex ey hx hy k hk
    obtain ⟨d1, d2, -⟩ := gloElem_decode (ez := 0) hx hy
    simp only [hk]
    rw [d1, d2]
  have p1 := (Puts.accum2 (a := c.nx - 1) (b := c.ny - 1) fun ex ey hx hy =>
    putRow_puts (n := 3) (e := c.el ex ey 0)
      (dec (fieldEps2 c w.u.val) ex ey hx hy)) w.elemStrain (c.el ex ey 0 * 3 + v)
  have p2 := (Puts.accum2 (a := c.nx - 1) (b := c.ny - 1) fun ex ey hx hy =>
    putRow_puts (n := 3) (e := c.el ex ey 0)
      (dec (fieldSig2 c w.u.val) ex ey hx hy)) w.elemStress (c.el ex ey 0 * 3 + v)
  have hq : (c.el ex ey 0 * 3 + v) / 3 = c.el ex ey 0 := mul_add_div' hv3
  have hr : (c.el ex ey 0 * 3 + v) % 3 = v := mul_add_mod' hv3
  obtain ⟨d1, d2, -⟩ := gloElem_decode (ez := 0) hx hy
  rw [e2, e3]
  constructor
  · rw [p1.1 ⟨ex, hx, ey, hy, hq⟩]
    simp only [hq, hr]
    rw [d1, d2]
  · rw [p2.1 ⟨ex, hx, ey, hy, hq⟩]
    simp only [hq, hr]
    rw [d1, d2]

end Verif
