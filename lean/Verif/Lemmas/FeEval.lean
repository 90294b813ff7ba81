import Verif.Lemmas.Bdry
import Verif.Lemmas.Stress

/-! # The finite element functions as pure functions, for every scalar type -/

namespace Verif
open Spec

variable {α : Type} [Scalar α]

/-! ## Loops -/

/-- A loop whose body never faults on states satisfying an invariant is a pure loop. -/
theorem loop_pure_inv {σ : Type} {P : σ → Prop} {f : Nat → σ → M σ} {g : Nat → σ → σ} {n : Nat}
    (h : ∀ i s, i < n → P s → f i s = .ok (g i s) ∧ P (g i s)) (s : σ) (hs : P s) :
    loop n f s = .ok (accum n g s) ∧ P (accum n g s) := by
  induction n with
  | zero => exact ⟨rfl, hs⟩
  | succ n ih =>
    obtain ⟨h1, h2⟩ := ih (fun i s hi => h i s (by omega))
    obtain ⟨h3, h4⟩ := h n (accum n g s) (by omega) h2
    exact ⟨by rw [loop_succ, h1]; exact h3, h4⟩

/-- A component that evolves on its own. -/
theorem accum_proj {σ τ : Type} {n : Nat} {g : Nat → σ → σ} {h : Nat → τ → τ} (π : σ → τ)
    (hg : ∀ i s, π (g i s) = h i (π s)) (s : σ) : π (accum n g s) = accum n h (π s) := by
  induction n with
  | zero => rfl
  | succ n ih => simp only [accum, hg, ih]

theorem accum_congr {σ : Type} {n : Nat} {g h : Nat → σ → σ} (H : ∀ i s, i < n → g i s = h i s)
    (s : σ) : accum n g s = accum n h s := by
  induction n with
  | zero => rfl
  | succ n ih => rw [accum, accum, ih fun i s hi => H i s (by omega), H n _ (by omega)]

/-- Two nested pure loops. -/
def accum2 {σ : Type} (a b : Nat) (g : Nat → Nat → σ → σ) (s : σ) : σ :=
  accum a (fun i s => accum b (fun j s => g i j s) s) s

/-- Three nested pure loops. -/
def accum3 {σ : Type} (a b c : Nat) (g : Nat → Nat → Nat → σ → σ) (s : σ) : σ :=
  accum a (fun i s => accum b (fun j s => accum c (fun k s => g i j k s) s) s) s

theorem loop2_pure {σ : Type} {P : σ → Prop} {f : Nat → Nat → σ → M σ} {g : Nat → Nat → σ → σ}
    {a b : Nat}
    (h : ∀ i j s, i < a → j < b → P s → f i j s = .ok (g i j s) ∧ P (g i j s)) (s : σ)
    (hs : P s) :
    loop a (fun i s => loop b (fun j s => f i j s) s) s = .ok (accum2 a b g s) ∧
      P (accum2 a b g s) :=
  loop_pure_inv (fun i s hi hs => loop_pure_inv (fun j s hj hs => h i j s hi hj hs) s hs) s hs

theorem loop3_pure {σ : Type} {P : σ → Prop} {f : Nat → Nat → Nat → σ → M σ}
    {g : Nat → Nat → Nat → σ → σ} {a b c : Nat}
    (h : ∀ i j k s, i < a → j < b → k < c → P s → f i j k s = .ok (g i j k s) ∧ P (g i j k s))
    (s : σ) (hs : P s) :
    loop a (fun i s => loop b (fun j s => loop c (fun k s => f i j k s) s) s) s
        = .ok (accum3 a b c g s) ∧ P (accum3 a b c g s) :=
  loop_pure_inv (fun i s hi hs => loop_pure_inv (fun j s hj hs =>
    loop_pure_inv (fun k s hk hs => h i j k s hi hj hk hs) s hs) s hs) s hs

theorem accum3_proj {σ τ : Type} {a b c : Nat} {g : Nat → Nat → Nat → σ → σ}
    {h : Nat → Nat → Nat → τ → τ} (π : σ → τ) (hg : ∀ i j k s, π (g i j k s) = h i j k (π s))
    (s : σ) : π (accum3 a b c g s) = accum3 a b c h (π s) :=
  accum_proj π (fun i s => accum_proj π (fun j s => accum_proj π (fun k s => hg i j k s) s) s) s

theorem accum2_proj {σ τ : Type} {a b : Nat} {g : Nat → Nat → σ → σ}
    {h : Nat → Nat → τ → τ} (π : σ → τ) (hg : ∀ i j s, π (g i j s) = h i j (π s))
    (s : σ) : π (accum2 a b g s) = accum2 a b h (π s) :=
  accum_proj π (fun i s => accum_proj π (fun j s => hg i j s) s) s

/-! ## Well-formed objects -/

/-- What the constructor guarantees about the constant members. -/
structure Cfg.Ok (c : Cfg α) : Prop where
  dim : c.dim = 2 ∨ c.dim = 3
  nx : 2 ≤ c.nx
  ny : 2 ≤ c.ny
  nz2 : c.dim = 2 → c.nz = 1
  nz3 : c.dim = 3 → 2 ≤ c.nz
  elem : c.elemType.size = c.nelem
  micro : c.microType = 0 ∨ c.microType = 1

theorem Cfg.Ok.nn2 {c : Cfg α} (h : c.Ok) (hd : c.dim = 2) : c.nn = c.nx * c.ny := by
  unfold Cfg.nn; rw [h.nz2 hd, Nat.mul_one]

theorem gloElem3D_lt {nx ny nz ex ey ez : Nat} (hx : ex < nx - 1) (hy : ey < ny - 1)
    (hz : ez < nz - 1) :
    gloElem3D nx ny ex ey ez < (nx - 1) * (ny - 1) * (nz - 1) := by
  have h := mul_add_lt (mul_add_lt hz hy) hx
  have e : gloElem3D nx ny ex ey ez = (ez * (ny - 1) + ey) * (nx - 1) + ex := by
    unfold gloElem3D; ring
  have e' : (nz - 1) * (ny - 1) * (nx - 1) = (nx - 1) * (ny - 1) * (nz - 1) := by ring
  omega

theorem gloElem2D_lt {nx ny ex ey : Nat} (hx : ex < nx - 1) (hy : ey < ny - 1) :
    gloElem3D nx ny ex ey 0 < (nx - 1) * (ny - 1) := by
  have h := mul_add_lt hy hx
  have e : gloElem3D nx ny ex ey 0 = ey * (nx - 1) + ex := by
    unfold gloElem3D; ring
  have e' : (ny - 1) * (nx - 1) = (nx - 1) * (ny - 1) := by ring
  omega

/-! ## Strains -/

theorem dispNode3D_eq {nx ny ex ey ez a : Nat} (ha : a < 8) :
    dispNode3D nx ny ex ey ez a = enode3 nx ny ex ey ez a := by
  interval_cases a <;> simp [dispNode3D, enode3, node3, cornerX, cornerY, cornerZ] <;> ring

theorem dispNode2D_eq {nx ex ey a : Nat} (ha : a < 4) :
    dispNode2D nx ex ey a = enode2 nx ex ey a := by
  interval_cases a <;> simp [dispNode2D, enode2, node2, cornerX, cornerY] <;> ring

theorem rhsNode3D_eq (nx ny ex ey ez a : Nat) :
    rhsNode3D nx ny ex ey ez a = dispNode3D nx ny ex ey ez a := rfl

theorem rhsNode2D_eq (nx ex ey a : Nat) : rhsNode2D nx ex ey a = dispNode2D nx ex ey a := rfl

/-- Dof `i` of a 3D element. -/
def edof3 (nx ny ex ey ez i : Nat) : Nat := enode3 nx ny ex ey ez (i / 3) * 3 + i % 3

/-- Dof `i` of a 2D element. -/
def edof2 (nx ex ey i : Nat) : Nat := enode2 nx ex ey (i / 2) * 2 + i % 2

theorem edof3_lt {nx ny nz ex ey ez i : Nat} (hx : ex < nx - 1) (hy : ey < ny - 1)
    (hz : ez < nz - 1) (hi : i < 24) : edof3 nx ny ex ey ez i < nx * ny * nz * 3 :=
  mul_add_lt (enode3_lt (by omega) (by omega) (by omega) (by omega)) (Nat.mod_lt _ (by omega))

theorem edof2_lt {nx ny ex ey i : Nat} (hx : ex < nx - 1) (hy : ey < ny - 1) :
    edof2 nx ex ey i < nx * ny * 2 :=
  mul_add_lt (enode2_lt (by omega) (by omega)) (Nat.mod_lt _ (by omega))

/-- Strain at a Gauss point of a 3D element, as computed. -/
def strain3 (c : Cfg α) (u : Nat → α) (ex ey ez gp v : Nat) : α :=
  accum 24 (fun i s => s + bmat3D c.dx c.dy c.dz gp v i * u (edof3 c.nx c.ny ex ey ez i)) 0

/-- Strain at a Gauss point of a 2D element, as computed. -/
def strain2 (c : Cfg α) (u : Nat → α) (ex ey gp v : Nat) : α :=
  accum 8 (fun i s => s + bmat2D c.dx c.dy gp v i * u (edof2 c.nx ex ey i)) 0

theorem getStrain3D_eq {c : Cfg α} {u : Buf α} {ex ey ez gp : Nat}
    (hu : u.size = c.nx * c.ny * c.nz * 3)
    (hx : ex < c.nx - 1) (hy : ey < c.ny - 1) (hz : ez < c.nz - 1) :
    getStrain3D c u ex ey ez gp = .ok (strain3 c u.val ex ey ez gp) := by
  unfold getStrain3D getElemDisp3D
  have e : ∀ j, j < 24 → dispNode3D c.nx c.ny ex ey ez (j / 3) * 3 + j % 3
      = edof3 c.nx c.ny ex ey ez j := by
    intro j hj; rw [dispNode3D_eq (by omega)]; rfl
  rw [gather_eq (by intro j hj; rw [hu, e j hj]; exact edof3_lt hx hy hz hj)]
  simp only [M_bind_ok', M_pure]
  congr 1
  funext v
  refine accum_congr (fun i s hi => ?_) _
  rw [if_pos hi, e i hi]

theorem getStrain2D_eq {c : Cfg α} {u : Buf α} {ex ey gp : Nat}
    (hu : u.size = c.nx * c.ny * 2)
    (hx : ex < c.nx - 1) (hy : ey < c.ny - 1) :
    getStrain2D c u ex ey gp = .ok (strain2 c u.val ex ey gp) := by
  unfold getStrain2D getElemDisp2D
  have e : ∀ j, j < 8 → dispNode2D c.nx ex ey (j / 2) * 2 + j % 2
      = edof2 c.nx ex ey j := by
    intro j hj; rw [dispNode2D_eq (by omega)]; rfl
  rw [gather_eq (by intro j hj; rw [hu, e j hj]; exact edof2_lt hx hy)]
  simp only [M_bind_ok', M_pure]
  congr 1
  funext v
  refine accum_congr (fun i s hi => ?_) _
  rw [if_pos hi, e i hi]

/-! ## Stresses -/

/-- Stress of a 3D material point. -/
def sig3 (m : Material α) (varsOld : Buf α) (e gp : Nat) (eps : Nat → α) : Nat → α :=
  if m.plasticity = true then
    (plasticStep m eps (epsPAt varsOld e gp) (alphaAt varsOld e gp)).stress
  else elasticStress3D m eps

/-- Does the point yield? -/
def nl3 (m : Material α) (varsOld : Buf α) (e gp : Nat) (eps : Nat → α) : Bool :=
  if m.plasticity = true then
    (plasticStep m eps (epsPAt varsOld e gp) (alphaAt varsOld e gp)).nl
  else false

/-- `vars_new` after the evaluation of the point. -/
def put3 (m : Material α) (varsOld : Buf α) (e gp : Nat) (eps : Nat → α) (v : Buf α) : Buf α :=
  if m.plasticity = true then
    putVars e gp (plasticStep m eps (epsPAt varsOld e gp) (alphaAt varsOld e gp)) v
  else v

@[simp] theorem put3_size (m : Material α) (varsOld : Buf α) (e gp : Nat) (eps : Nat → α)
    (v : Buf α) : (put3 m varsOld e gp eps v).size = v.size := by
  unfold put3; split <;> rfl

theorem stressOut_eq (m : Material α) (varsOld : Buf α) (e gp : Nat) (eps : Nat → α) (v : Buf α) :
    stressOut m varsOld e gp eps v
      = { nl := nl3 m varsOld e gp eps, stress := sig3 m varsOld e gp eps,
          varsNew := put3 m varsOld e gp eps v } := by
  unfold stressOut nl3 sig3 put3; split <;> rfl

section
variable {c : Cfg α}

/-- Abbreviation: the 3D element number. -/
abbrev Cfg.el (c : Cfg α) (ex ey ez : Nat) : Nat := gloElem3D c.nx c.ny ex ey ez

/-- Strain, stress, flag and stored variables at a Gauss point of the 3D grid. -/
def gpSig (c : Cfg α) (u : Nat → α) (vo : Buf α) (ex ey ez gp : Nat) : Nat → α :=
  sig3 (matOf c (c.el ex ey ez)) vo (c.el ex ey ez) gp (strain3 c u ex ey ez gp)

def gpNl (c : Cfg α) (u : Nat → α) (vo : Buf α) (ex ey ez gp : Nat) : Bool :=
  nl3 (matOf c (c.el ex ey ez)) vo (c.el ex ey ez) gp (strain3 c u ex ey ez gp)

def gpPut (c : Cfg α) (u : Nat → α) (vo : Buf α) (ex ey ez gp : Nat) (v : Buf α) : Buf α :=
  put3 (matOf c (c.el ex ey ez)) vo (c.el ex ey ez) gp (strain3 c u ex ey ez gp) v

@[simp] theorem gpPut_size (u : Nat → α) (vo : Buf α) (ex ey ez gp : Nat) (v : Buf α) :
    (gpPut c u vo ex ey ez gp v).size = v.size := by simp [gpPut]

theorem numIntVars3 (hd : c.dim = 3) :
    c.numIntVars = (c.nx - 1) * (c.ny - 1) * (c.nz - 1) * 8 * 7 := by
  unfold Cfg.numIntVars Cfg.nelem; rw [hd]; rfl

theorem nelem3 (hd : c.dim = 3) : c.nelem = (c.nx - 1) * (c.ny - 1) * (c.nz - 1) := by
  unfold Cfg.nelem; rw [hd]; rfl

theorem nelem2 (hd : c.dim = 2) : c.nelem = (c.nx - 1) * (c.ny - 1) := by
  unfold Cfg.nelem; rw [hd]; rfl

theorem getStress3D_pure (hc : c.Ok) (hd : c.dim = 3) {vo vn : Buf α} {ex ey ez gp : Nat}
    {eps : Nat → α} (hx : ex < c.nx - 1) (hy : ey < c.ny - 1) (hz : ez < c.nz - 1) (hg : gp < 8)
    (ho : vo.size = c.numIntVars) (hn : vn.size = c.numIntVars) :
    getStress3D c vo vn ex ey ez gp eps = .ok
      { nl := nl3 (matOf c (c.el ex ey ez)) vo (c.el ex ey ez) gp eps
        stress := sig3 (matOf c (c.el ex ey ez)) vo (c.el ex ey ez) gp eps
        varsNew := put3 (matOf c (c.el ex ey ez)) vo (c.el ex ey ez) gp eps vn } := by
  have he := gloElem3D_lt hx hy hz
  rw [getStress3D_eq hc.micro (by rw [hc.elem, nelem3 hd]; exact he)
    (by rw [ho, numIntVars3 hd]; exact intvarIx_lt he hg (by omega))
    (by rw [hn, numIntVars3 hd]; exact intvarIx_lt he hg (by omega)), stressOut_eq]

/-- Stress at a Gauss point of a 2D element. -/
def sig2 (m : Material α) (eps : Nat → α) (i : Nat) : α :=
  accum 3 (fun j s => s + ctan2D m i j * eps j) 0

theorem getStress2D_pure (hc : c.Ok) (hd : c.dim = 2) {ex ey : Nat} {eps : Nat → α}
    (hx : ex < c.nx - 1) (hy : ey < c.ny - 1) :
    getStress2D c ex ey eps = .ok (sig2 (matOf c (c.el ex ey 0)) eps) := by
  unfold getStress2D
  rw [getMaterial_eq hc.micro (by rw [hc.elem, nelem2 hd]; exact gloElem2D_lt hx hy)]
  rfl

/-! ## Element vectors -/

/-- `be` of `get_elem_rhs3D`. -/
def elemRhs3 (c : Cfg α) (u : Nat → α) (vo : Buf α) (ex ey ez : Nat) : Nat → α :=
  accum 8 (fun gp be i => accum 6 (fun j t => t + bmat3D c.dx c.dy c.dz gp j i
    * gpSig c u vo ex ey ez gp j * wg3D c) (be i)) (fun _ => 0)

/-- `be` of `get_elem_rhs2D`. -/
def elemRhs2 (c : Cfg α) (u : Nat → α) (ex ey : Nat) : Nat → α :=
  accum 4 (fun gp be i => accum 3 (fun j s => s + bmat2D c.dx c.dy gp j i
    * sig2 (matOf c (c.el ex ey 0)) (strain2 c u ex ey gp) j * wg2D c) (be i)) (fun _ => 0)

/-- `vars_new` after the eight Gauss points of an element. -/
def elemPut (c : Cfg α) (u : Nat → α) (vo : Buf α) (ex ey ez : Nat) (v : Buf α) : Buf α :=
  accum 8 (fun gp v => gpPut c u vo ex ey ez gp v) v

theorem accum_size {n : Nat} {g : Nat → Buf α → Buf α} (h : ∀ i v, (g i v).size = v.size)
    (v : Buf α) : (accum n g v).size = v.size := by
  induction n with
  | zero => rfl
  | succ n ih => rw [accum, h, ih]

@[simp] theorem elemPut_size (u : Nat → α) (vo : Buf α) (ex ey ez : Nat) (v : Buf α) :
    (elemPut c u vo ex ey ez v).size = v.size :=
  accum_size (fun _ _ => gpPut_size ..) v

theorem getElemRhs2D_eq (hc : c.Ok) (hd : c.dim = 2) {u : Buf α} {ex ey : Nat}
    (hu : u.size = c.nx * c.ny * 2) (hx : ex < c.nx - 1) (hy : ey < c.ny - 1) :
    getElemRhs2D c u ex ey = .ok (elemRhs2 c u.val ex ey) := by
  unfold getElemRhs2D elemRhs2
  refine loop_pure (fun gp be hg => ?_) _
  rw [getStrain2D_eq hu hx hy, M_bind_ok', getStress2D_pure hc hd hx hy]
  rfl

theorem getElemRhs3D_eq (hc : c.Ok) (hd : c.dim = 3) {u vo vn : Buf α} {ex ey ez : Nat} {nl : Bool}
    (hu : u.size = c.nx * c.ny * c.nz * 3) (ho : vo.size = c.numIntVars)
    (hn : vn.size = c.numIntVars) (hx : ex < c.nx - 1) (hy : ey < c.ny - 1) (hz : ez < c.nz - 1) :
    getElemRhs3D c u vo vn ex ey ez nl = .ok
      { be := elemRhs3 c u.val vo ex ey ez, nl := gpNl c u.val vo ex ey ez 7
        varsNew := elemPut c u.val vo ex ey ez vn } := by
  unfold getElemRhs3D
  obtain ⟨h1, _⟩ := loop_pure_inv (n := 8)
    (P := fun s : ElemRhs α => s.varsNew.size = c.numIntVars)
    (f := fun gp s => do
      let eps ← getStrain3D c u ex ey ez gp
      let r ← getStress3D c vo s.varsNew ex ey ez gp eps
      pure { be := fun i => accum 6 (fun j t => t + bmat3D c.dx c.dy c.dz gp j i * r.stress j
                * wg3D c) (s.be i)
             nl := r.nl
             varsNew := r.varsNew })
    (g := fun gp s =>
      { be := fun i => accum 6 (fun j t => t + bmat3D c.dx c.dy c.dz gp j i
          * gpSig c u.val vo ex ey ez gp j * wg3D c) (s.be i)
        nl := gpNl c u.val vo ex ey ez gp
        varsNew := gpPut c u.val vo ex ey ez gp s.varsNew })
    (by
      intro gp s hg hs
      rw [getStrain3D_eq hu hx hy hz, M_bind_ok', getStress3D_pure hc hd hx hy hz hg ho hs]
      exact ⟨rfl, by simpa using hs⟩)
    { be := fun _ => 0, nl := nl, varsNew := vn } hn
  rw [h1]
  congr 1

/-! ## Right hand side -/

/-- `for (i < n) b[index[i]] += be[i]` on values. -/
def scatterVal (n : Nat) (index : Nat → Nat) (be : Nat → α) (f : Nat → α) : Nat → α :=
  accum n (fun i f k => if k = index i then f (index i) + be i else f k) f

theorem scatterAdd_eq {n : Nat} {index : Nat → Nat} {be : Nat → α} {b : Buf α}
    (h : ∀ i, i < n → index i < b.size) :
    scatterAdd n index be b = .ok ⟨b.size, scatterVal n index be b.val⟩ := by
  unfold scatterAdd
  obtain ⟨h1, h2⟩ := loop_pure_inv (n := n) (P := fun s : Buf α => s.size = b.size)
    (f := fun i b => do
      let v ← b.read (index i)
      b.write (index i) (v + be i))
    (g := fun i s => ⟨s.size, fun k => if k = index i then s.val (index i) + be i else s.val k⟩)
    (by
      intro i s hi hs
      rw [Buf.read_ok (by rw [hs]; exact h i hi), M_bind_ok',
        Buf.write_ok _ (by rw [hs]; exact h i hi)]
      exact ⟨rfl, hs⟩) b rfl
  rw [h1]
  congr 1
  refine Buf.ext' h2 fun k => ?_
  have e := accum_proj (n := n) Buf.val
    (g := fun i (s : Buf α) => ⟨s.size, fun k => if k = index i then s.val (index i) + be i else s.val k⟩)
    (h := fun i f k => if k = index i then f (index i) + be i else f k) (fun _ _ => rfl) b
  exact congrFun e k

theorem scatterVal_congr {n : Nat} {index index' : Nat → Nat} {be : Nat → α} {f : Nat → α}
    (h : ∀ i, i < n → index i = index' i) :
    scatterVal n index be f = scatterVal n index' be f := by
  unfold scatterVal
  exact accum_congr (fun i s hi => by rw [h i hi]) f

theorem rhsElem2D_eq (hc : c.Ok) (hd : c.dim = 2) {u b : Buf α} {ex ey : Nat}
    (hu : u.size = c.nx * c.ny * 2) (hb : b.size = c.nx * c.ny * 2) (hx : ex < c.nx - 1)
    (hy : ey < c.ny - 1) :
    rhsElem2D c u ex ey b
      = .ok ⟨b.size, scatterVal 8 (edof2 c.nx ex ey) (elemRhs2 c u.val ex ey) b.val⟩ := by
  unfold rhsElem2D
  have e : ∀ j, j < 8 → rhsNode2D c.nx ex ey (j / 2) * 2 + j % 2 = edof2 c.nx ex ey j := by
    intro j hj; rw [rhsNode2D_eq, dispNode2D_eq (by omega)]; rfl
  rw [getElemRhs2D_eq hc hd hu hx hy, M_bind_ok', scatterAdd_eq (by
    intro i hi; rw [hb, e i hi]; exact edof2_lt hx hy), scatterVal_congr e]

/-- The state after the body for one 3D element. -/
def rhsStep3 (c : Cfg α) (u : Nat → α) (vo : Buf α) (ex ey ez : Nat) (s : RhsState α) :
    RhsState α :=
  { b := ⟨s.b.size, scatterVal 24 (edof3 c.nx c.ny ex ey ez) (elemRhs3 c u vo ex ey ez) s.b.val⟩
    nl := if gpNl c u vo ex ey ez 7 = true then true else s.nl
    nlOne := gpNl c u vo ex ey ez 7
    varsNew := elemPut c u vo ex ey ez s.varsNew }

theorem rhsElem3D_eq (hc : c.Ok) (hd : c.dim = 3) {u vo : Buf α} {ex ey ez : Nat}
    {s : RhsState α}
    (hu : u.size = c.nx * c.ny * c.nz * 3) (ho : vo.size = c.numIntVars)
    (hb : s.b.size = c.nx * c.ny * c.nz * 3) (hn : s.varsNew.size = c.numIntVars)
    (hx : ex < c.nx - 1) (hy : ey < c.ny - 1) (hz : ez < c.nz - 1) :
    rhsElem3D c u vo ex ey ez s = .ok (rhsStep3 c u.val vo ex ey ez s) := by
  unfold rhsElem3D
  have e : ∀ j, j < 24 → rhsNode3D c.nx c.ny ex ey ez (j / 3) * 3 + j % 3
      = edof3 c.nx c.ny ex ey ez j := by
    intro j hj; rw [rhsNode3D_eq, dispNode3D_eq (by omega)]; rfl
  rw [getElemRhs3D_eq hc hd hu ho hn hx hy hz, M_bind_ok', scatterAdd_eq (by
    intro i hi; rw [hb, e i hi]; exact edof3_lt hx hy hz hi), scatterVal_congr e]
  rfl

/-- The assembled vector before the boundary loops, 3D. -/
def fint3 (c : Cfg α) (u : Nat → α) (vo : Buf α) (f : Nat → α) : Nat → α :=
  accum3 (c.nx - 1) (c.ny - 1) (c.nz - 1) (fun ex ey ez f =>
    scatterVal 24 (edof3 c.nx c.ny ex ey ez) (elemRhs3 c u vo ex ey ez) f) f

/-- The assembled vector before the boundary loops, 2D. -/
def fint2 (c : Cfg α) (u : Nat → α) (f : Nat → α) : Nat → α :=
  accum2 (c.nx - 1) (c.ny - 1) (fun ex ey f =>
    scatterVal 8 (edof2 c.nx ex ey) (elemRhs2 c u ex ey) f) f

/-- `*non_linear` of `assembly_rhs`. -/
def rhsNl (c : Cfg α) (u : Nat → α) (vo : Buf α) : Bool :=
  accum3 (c.nx - 1) (c.ny - 1) (c.nz - 1) (fun ex ey ez s =>
    if gpNl c u vo ex ey ez 7 = true then true else s) false

/-- `vars_new` after all Gauss points of all elements. -/
def allPut (c : Cfg α) (u : Nat → α) (vo : Buf α) (v : Buf α) : Buf α :=
  accum3 (c.nx - 1) (c.ny - 1) (c.nz - 1) (fun ex ey ez v => elemPut c u vo ex ey ez v) v

theorem accum3_size {a b d : Nat} {g : Nat → Nat → Nat → Buf α → Buf α}
    (h : ∀ i j k v, (g i j k v).size = v.size) (v : Buf α) : (accum3 a b d g v).size = v.size :=
  accum_size (fun i v => accum_size (fun j v => accum_size (fun k v => h i j k v) v) v) v

@[simp] theorem allPut_size (u : Nat → α) (vo v : Buf α) : (allPut c u vo v).size = v.size :=
  accum3_size (fun _ _ _ _ => elemPut_size ..) v

theorem negNorm_eq {n : Nat} {b : Buf α} (hb : b.size = n) :
    negNorm n b = .ok (⟨n, fun k => if k < n then -b.val k else b.val k⟩,
      Scalar.sqrt (accum n (fun i s => s + (-b.val i) * (-b.val i)) 0)) := by
  unfold negNorm
  obtain ⟨s, h1, h2, h3⟩ := loop_inv (n := n) (s := b)
    (f := fun i b => do
      let v ← b.read i
      b.write i (-v))
    (P := fun k (s : Buf α) => s.size = n ∧ ∀ q, s.val q = if q < k then -b.val q else b.val q)
    ⟨hb, by intro q; simp⟩ (by
      rintro i s hi ⟨hs, hv⟩
      refine ⟨⟨s.size, fun k => if k = i then -s.val i else s.val k⟩,
        by rw [Buf.read_ok (by omega), M_bind_ok', Buf.write_ok _ (by omega)], hs, ?_⟩
      intro q
      by_cases hq : q = i
      · subst hq; simp [hv]
      · simp only [hq, if_false, hv]
        by_cases hl : q < i
        · rw [if_pos hl, if_pos (by omega)]
        · rw [if_neg hl, if_neg (by omega)])
  rw [h1, M_bind_ok']
  have e : s = ⟨n, fun k => if k < n then -b.val k else b.val k⟩ := Buf.ext' h2 h3
  rw [e]
  rw [loop_pure (g := fun i t => t + (-b.val i) * (-b.val i)) (by
    intro i t hi
    rw [Buf.read_ok hi, M_bind_ok']
    simp only [hi, if_true]; rfl)]
  rfl

theorem zeroLoop_eq {n : Nat} {b : Buf α} (hb : b.size = n) :
    loop n (fun i b => b.write i 0) b
      = .ok ⟨n, fun k => if k < n then 0 else b.val k⟩ := by
  obtain ⟨v, h1, h2, h3, h4⟩ := (SetTo.loop (N := n) (c := fun _ => (0 : α)) (n := n)
    (f := fun i b => b.write i 0) fun i hi => SetTo.write hi rfl) b hb
  rw [h1]
  congr 1
  refine Buf.ext' h2 fun k => ?_
  by_cases hk : k < n
  · rw [h3 k ⟨k, hk, rfl⟩]; exact (if_pos hk).symm
  · rw [h4 k (by rintro ⟨i, hi, rfl⟩; exact hk hi)]; exact (if_neg hk).symm

/-- The internal-force vector with boundary entries zeroed, negated; `f0` supplies the (never
visible) content beyond the end. -/
def resid3 (c : Cfg α) (u : Nat → α) (vo : Buf α) (f0 : Nat → α) (q : Nat) : α :=
  let N := c.nx * c.ny * c.nz * 3
  let f := fint3 c u vo (fun k => if k < N then 0 else f0 k)
  if q < N then -(if BdryDof3 3 c.nx c.ny c.nz q then 0 else f q) else f q

/-- 2D. -/
def resid2 (c : Cfg α) (u : Nat → α) (f0 : Nat → α) (q : Nat) : α :=
  let N := c.nx * c.ny * 2
  let f := fint2 c u (fun k => if k < N then 0 else f0 k)
  if q < N then -(if BdryDof2 2 c.nx c.ny q then 0 else f q) else f q

/-- The norm as computed. -/
def normOf (n : Nat) (f : Nat → α) : α := Scalar.sqrt (accum n (fun i s => s + f i * f i) 0)

theorem assemblyRhs3_eq (hc : c.Ok) (hd : c.dim = 3) {w : Work α}
    (hu : w.u.size = c.nx * c.ny * c.nz * 3) (hb : w.b.size = c.nx * c.ny * c.nz * 3)
    (ho : w.varsOld.size = c.numIntVars) (hn : w.varsNew.size = c.numIntVars) :
    assemblyRhs c w = .ok
      { work := { w with
          b := ⟨c.nx * c.ny * c.nz * 3, resid3 c w.u.val w.varsOld w.b.val⟩
          varsNew := allPut c w.u.val w.varsOld w.varsNew }
        norm := normOf (c.nx * c.ny * c.nz * 3) (resid3 c w.u.val w.varsOld w.b.val)
        nl := rhsNl c w.u.val w.varsOld } := by
  have hz := hc.nz3 hd
  have hN : c.nn * c.dim = c.nx * c.ny * c.nz * 3 := by rw [hd]; rfl
  unfold assemblyRhs
  rw [hN, zeroLoop_eq hb, M_bind_ok', if_neg (by omega), if_pos hd]
  obtain ⟨h1, h2⟩ := loop3_pure (a := c.nx - 1) (b := c.ny - 1) (c := c.nz - 1)
    (P := fun s : RhsState α => s.b.size = c.nx * c.ny * c.nz * 3 ∧
      s.varsNew.size = c.numIntVars)
    (f := fun ex ey ez s => rhsElem3D c w.u w.varsOld ex ey ez s)
    (g := fun ex ey ez s => rhsStep3 c w.u.val w.varsOld ex ey ez s)
    (by
      rintro ex ey ez s hx hy hz ⟨h1, h2⟩
      exact ⟨rhsElem3D_eq hc hd hu ho h1 h2 hx hy hz, h1, by simpa [rhsStep3] using h2⟩)
    { b := ⟨c.nx * c.ny * c.nz * 3, fun k => if k < c.nx * c.ny * c.nz * 3 then 0 else w.b.val k⟩
      nl := false, nlOne := false, varsNew := w.varsNew } ⟨rfl, hn⟩
  rw [h1, M_bind_ok']
  generalize hS : accum3 (c.nx - 1) (c.ny - 1) (c.nz - 1)
    (fun ex ey ez s => rhsStep3 c w.u.val w.varsOld ex ey ez s)
    { b := ⟨c.nx * c.ny * c.nz * 3, fun k => if k < c.nx * c.ny * c.nz * 3 then 0 else w.b.val k⟩
      nl := false, nlOne := false, varsNew := w.varsNew } = S at *
  have eb : S.b.val = fint3 c w.u.val w.varsOld
      (fun k => if k < c.nx * c.ny * c.nz * 3 then 0 else w.b.val k) := by
    rw [← hS]; exact accum3_proj (fun s : RhsState α => s.b.val) (fun _ _ _ _ => rfl) _
  have ev : S.varsNew = allPut c w.u.val w.varsOld w.varsNew := by
    rw [← hS]; exact accum3_proj (fun s : RhsState α => s.varsNew) (fun _ _ _ _ => rfl) _
  have en : S.nl = rhsNl c w.u.val w.varsOld := by
    rw [← hS]; exact accum3_proj (fun s : RhsState α => s.nl) (fun _ _ _ _ => rfl) _
  obtain ⟨b, h3, h4, h5, h6⟩ := rhsBc3D_setTo hc.nx hc.ny hz S.b h2.1
  rw [h3, M_bind_ok', negNorm_eq h4, M_bind_ok']
  have ebv : ∀ k, k < c.nx * c.ny * c.nz * 3 →
      b.val k = if BdryDof3 3 c.nx c.ny c.nz k then 0 else S.b.val k := by
    intro k hk
    by_cases hB : BdryDof3 3 c.nx c.ny c.nz k
    · rw [h5 k ⟨hk, hB⟩, if_pos hB]
    · rw [h6 k (fun h => hB h.2), if_neg hB]
  have er : (fun k => if k < c.nx * c.ny * c.nz * 3 then -b.val k else b.val k)
      = resid3 c w.u.val w.varsOld w.b.val := by
    funext k
    unfold resid3
    simp only
    by_cases hk : k < c.nx * c.ny * c.nz * 3
    · rw [if_pos hk, if_pos hk, ebv k hk, eb]
    · rw [if_neg hk, if_neg hk, h6 k (fun h => hk h.1), eb]
  have esum : accum (c.nx * c.ny * c.nz * 3) (fun i s => s + (-b.val i) * (-b.val i)) 0
      = accum (c.nx * c.ny * c.nz * 3) (fun i s => s + resid3 c w.u.val w.varsOld w.b.val i
        * resid3 c w.u.val w.varsOld w.b.val i) 0 := by
    refine accum_congr (fun i s hi => ?_) _
    rw [← er]; simp only [hi, if_true]
  rw [er, esum, ev, en]
  rfl

theorem assemblyRhs2_eq (hc : c.Ok) (hd : c.dim = 2) {w : Work α}
    (hu : w.u.size = c.nx * c.ny * 2) (hb : w.b.size = c.nx * c.ny * 2) :
    assemblyRhs c w = .ok
      { work := { w with b := ⟨c.nx * c.ny * 2, resid2 c w.u.val w.b.val⟩ }
        norm := normOf (c.nx * c.ny * 2) (resid2 c w.u.val w.b.val)
        nl := false } := by
  have hN : c.nn * c.dim = c.nx * c.ny * 2 := by rw [hc.nn2 hd, hd]
  unfold assemblyRhs
  rw [hN, zeroLoop_eq hb, M_bind_ok', if_pos hd]
  obtain ⟨h1, h2⟩ := loop2_pure (a := c.nx - 1) (b := c.ny - 1)
    (P := fun s : Buf α => s.size = c.nx * c.ny * 2)
    (f := fun ex ey s => rhsElem2D c w.u ex ey s)
    (g := fun ex ey s => ⟨s.size, scatterVal 8 (edof2 c.nx ex ey) (elemRhs2 c w.u.val ex ey) s.val⟩)
    (by
      intro ex ey s hx hy h1
      exact ⟨rhsElem2D_eq hc hd hu h1 hx hy, h1⟩)
    ⟨c.nx * c.ny * 2, fun k => if k < c.nx * c.ny * 2 then 0 else w.b.val k⟩ rfl
  rw [h1, M_bind_ok']
  generalize hS : accum2 (c.nx - 1) (c.ny - 1)
    (fun ex ey (s : Buf α) =>
      (⟨s.size, scatterVal 8 (edof2 c.nx ex ey) (elemRhs2 c w.u.val ex ey) s.val⟩ : Buf α))
    ⟨c.nx * c.ny * 2, fun k => if k < c.nx * c.ny * 2 then 0 else w.b.val k⟩ = S at *
  have eb : S.val = fint2 c w.u.val
      (fun k => if k < c.nx * c.ny * 2 then 0 else w.b.val k) := by
    rw [← hS]; exact accum2_proj (fun s : Buf α => s.val) (fun _ _ _ => rfl) _
  obtain ⟨b, h3, h4, h5, h6⟩ := rhsBc2D_setTo hc.nx hc.ny S h2
  rw [h3, M_bind_ok', negNorm_eq h4, M_bind_ok']
  have ebv : ∀ k, k < c.nx * c.ny * 2 →
      b.val k = if BdryDof2 2 c.nx c.ny k then 0 else S.val k := by
    intro k hk
    by_cases hB : BdryDof2 2 c.nx c.ny k
    · rw [h5 k ⟨hk, hB⟩, if_pos hB]
    · rw [h6 k (fun h => hB h.2), if_neg hB]
  have er : (fun k => if k < c.nx * c.ny * 2 then -b.val k else b.val k)
      = resid2 c w.u.val w.b.val := by
    funext k
    unfold resid2
    simp only
    by_cases hk : k < c.nx * c.ny * 2
    · rw [if_pos hk, if_pos hk, ebv k hk, eb]
    · rw [if_neg hk, if_neg hk, h6 k (fun h => hk h.1), eb]
  have esum : accum (c.nx * c.ny * 2) (fun i s => s + (-b.val i) * (-b.val i)) 0
      = accum (c.nx * c.ny * 2) (fun i s => s + resid2 c w.u.val w.b.val i
        * resid2 c w.u.val w.b.val i) 0 := by
    refine accum_congr (fun i s hi => ?_) _
    rw [← er]; simp only [hi, if_true]
  rw [er, esum]
  rfl

end

end Verif
