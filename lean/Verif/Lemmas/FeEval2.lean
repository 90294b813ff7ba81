import Verif.Lemmas.FeEval
import Verif.Lemmas.EllAsm

/-! # Element matrices, averages, fields and stored variables as pure functions -/

namespace Verif
open Spec

variable {α : Type} [Scalar α]

/-- What the constructor guarantees about the scratch memory. -/
structure Work.Ok (c : Cfg α) (w : Work α) : Prop where
  u : w.u.size = c.nn * c.dim
  du : w.du.size = c.nn * c.dim
  b : w.b.size = c.nn * c.dim
  elemStress : w.elemStress.size = c.nelem * c.nvoi
  elemStrain : w.elemStrain.size = c.nelem * c.nvoi
  varsOld : w.varsOld.size = c.numIntVars
  varsNew : w.varsNew.size = c.numIntVars
  A2 : c.dim = 2 → Pattern2Weak w.A 2 c.nx c.ny
  A3 : c.dim = 3 → Pattern3 w.A 3 c.nx c.ny c.nz

variable {c : Cfg α}

/-! ## Stored variables -/

/-- A step that sets the entries in `S` to `cv` and keeps the others. -/
def Puts (S : Nat → Prop) (cv : Nat → α) (g : Buf α → Buf α) : Prop :=
  ∀ v k, (S k → (g v).val k = cv k) ∧ (¬ S k → (g v).val k = v.val k)

theorem Puts.accum {n : Nat} {S : Nat → Nat → Prop} {cv : Nat → α} {g : Nat → Buf α → Buf α}
    (h : ∀ i, i < n → Puts (S i) cv (g i)) :
    Puts (fun k => ∃ i, i < n ∧ S i k) cv (fun v => accum n g v) := by
  induction n with
  | zero => intro v k; simp [Verif.accum]
  | succ n ih =>
    intro v k
    obtain ⟨h1, h2⟩ := ih (fun i hi => h i (by omega)) v k
    obtain ⟨h3, h4⟩ := h n (by omega) (Verif.accum n g v) k
    simp only [Verif.accum]
    constructor
    · rintro ⟨i, hi, hs⟩
      by_cases hn : S n k
      · exact h3 hn
      · rw [h4 hn]
        refine h1 ⟨i, ?_, hs⟩
        rcases Nat.lt_succ_iff_lt_or_eq.mp hi with h | rfl
        · exact h
        · exact absurd hs hn
    · intro hS
      rw [h4 fun h => hS ⟨n, by omega, h⟩, h2]
      rintro ⟨i, hi, hs⟩
      exact hS ⟨i, by omega, hs⟩

theorem Puts.congr {S T : Nat → Prop} {cv : Nat → α} {g : Buf α → Buf α} (h : Puts S cv g)
    (hST : ∀ k, S k ↔ T k) : Puts T cv g := by
  have : S = T := by funext k; exact propext (hST k)
  exact this ▸ h

/-- Entry `k` of the variables an evaluation at `u` stores for a plastic element. -/
def varAt (c : Cfg α) (u : Nat → α) (vo : Buf α) (k : Nat) : α :=
  let e := k / 56
  let gp := k / 7 % 8
  let r := plasticStep (matOf c e)
    (strain3 c u (e % (c.nx - 1)) (e / (c.nx - 1) % (c.ny - 1)) (e / (c.nx - 1) / (c.ny - 1)) gp)
    (epsPAt vo e gp) (alphaAt vo e gp)
  if k % 7 = 6 then r.alpha else r.epsP (k % 7)

/-- Entry `k` belongs to an element with a plastic material. -/
def PlasticVar (c : Cfg α) (k : Nat) : Prop :=
  k < c.numIntVars ∧ (matOf c (k / 56)).plasticity = true

theorem gloElem_decode {nx ny ex ey ez : Nat} (hx : ex < nx - 1) (hy : ey < ny - 1) :
    gloElem3D nx ny ex ey ez % (nx - 1) = ex ∧
    gloElem3D nx ny ex ey ez / (nx - 1) % (ny - 1) = ey ∧
    gloElem3D nx ny ex ey ez / (nx - 1) / (ny - 1) = ez := by
  have e : gloElem3D nx ny ex ey ez = (ez * (ny - 1) + ey) * (nx - 1) + ex := by
    unfold gloElem3D; ring
  rw [e, mul_add_mod' hx, mul_add_div' hx, mul_add_mod' hy, mul_add_div' hy]
  exact ⟨rfl, rfl, rfl⟩

theorem gloElem_surj {nx ny nz e : Nat} (h : e < (nx - 1) * (ny - 1) * (nz - 1)) :
    ∃ ex ey ez, ex < nx - 1 ∧ ey < ny - 1 ∧ ez < nz - 1 ∧ e = gloElem3D nx ny ex ey ez := by
  have hx : 0 < nx - 1 := by
    rcases Nat.eq_zero_or_pos (nx - 1) with h0 | h0
    · simp [h0] at h
    · exact h0
  have hy : 0 < ny - 1 := by
    rcases Nat.eq_zero_or_pos (ny - 1) with h0 | h0
    · simp [h0] at h
    · exact h0
  refine ⟨e % (nx - 1), e / (nx - 1) % (ny - 1), e / (nx - 1) / (ny - 1), Nat.mod_lt _ hx,
    Nat.mod_lt _ hy, ?_, ?_⟩
  · refine Nat.div_lt_of_lt_mul (Nat.div_lt_of_lt_mul ?_)
    calc e < (nx - 1) * (ny - 1) * (nz - 1) := h
      _ = (nx - 1) * ((ny - 1) * (nz - 1)) := by ring
  · have h1 := Nat.div_add_mod e (nx - 1)
    have h2 := Nat.div_add_mod (e / (nx - 1)) (ny - 1)
    unfold gloElem3D
    generalize e / (nx - 1) / (ny - 1) = q at *
    generalize e / (nx - 1) % (ny - 1) = r at *
    rw [← h2] at h1
    conv_lhs => rw [← h1]
    ring

theorem gpPut_puts {u : Nat → α} {vo : Buf α} {ex ey ez gp : Nat} (hx : ex < c.nx - 1)
    (hy : ey < c.ny - 1) (hg : gp < 8) :
    Puts (fun k => k / 7 = c.el ex ey ez * 8 + gp ∧ (matOf c (c.el ex ey ez)).plasticity = true)
      (varAt c u vo) (gpPut c u vo ex ey ez gp) := by
  intro v k
  unfold gpPut put3
  by_cases hp : (matOf c (c.el ex ey ez)).plasticity = true
  · simp only [hp, if_true, and_true]
    unfold putVars
    constructor
    · intro hk
      obtain ⟨d1, d2, d3⟩ := gloElem_decode (ez := ez) hx hy
      have he : k / 56 = c.el ex ey ez := by
        rw [show k / 56 = k / 7 / 8 from by omega, hk, mul_add_div' hg]
      have hgp : k / 7 % 8 = gp := by rw [hk, mul_add_mod' hg]
      simp only [hk, if_true]
      unfold varAt
      simp only [he, hgp]
      rw [d1, d2, d3]
    · intro hk; simp only [hk, if_false]
  · have hp' : (matOf c (c.el ex ey ez)).plasticity = false := by simpa using hp
    simp [hp']

theorem elemPut_puts {u : Nat → α} {vo : Buf α} {ex ey ez : Nat} (hx : ex < c.nx - 1)
    (hy : ey < c.ny - 1) :
    Puts (fun k => k / 56 = c.el ex ey ez ∧ (matOf c (c.el ex ey ez)).plasticity = true)
      (varAt c u vo) (elemPut c u vo ex ey ez) := by
  refine (Puts.accum (S := fun gp k => k / 7 = c.el ex ey ez * 8 + gp ∧
    (matOf c (c.el ex ey ez)).plasticity = true) fun gp hg => gpPut_puts hx hy hg).congr ?_
  intro k
  constructor
  · rintro ⟨gp, hg, hk, hp⟩
    exact ⟨by rw [show k / 56 = k / 7 / 8 from by omega, hk, mul_add_div' hg], hp⟩
  · rintro ⟨hk, hp⟩
    exact ⟨k / 7 % 8, by omega, by rw [← hk]; omega, hp⟩

theorem allPut_puts (hd : c.dim = 3) {u : Nat → α} {vo : Buf α} :
    Puts (PlasticVar c) (varAt c u vo) (allPut c u vo) := by
  have hN := numIntVars3 hd
  refine (Puts.accum (S := fun ex k => ∃ ey, ey < c.ny - 1 ∧ ∃ ez, ez < c.nz - 1 ∧
    (k / 56 = c.el ex ey ez ∧ (matOf c (c.el ex ey ez)).plasticity = true))
    fun ex hx => Puts.accum fun ey hy => Puts.accum fun ez _ => elemPut_puts hx hy).congr ?_
  intro k
  unfold PlasticVar
  constructor
  · rintro ⟨ex, hx, ey, hy, ez, hz, hk, hp⟩
    have := gloElem3D_lt hx hy hz
    refine ⟨?_, by rw [hk]; exact hp⟩
    rw [hN]
    have h2 : c.el ex ey ez < (c.nx - 1) * (c.ny - 1) * (c.nz - 1) := this
    omega
  · rintro ⟨hk, hp⟩
    obtain ⟨ex, ey, ez, hx, hy, hz, he⟩ := gloElem_surj (nx := c.nx) (ny := c.ny) (nz := c.nz)
      (e := k / 56) (by rw [hN] at hk; omega)
    exact ⟨ex, hx, ey, hy, ez, hz, he, by rw [show c.el ex ey ez = k / 56 from he.symm]; exact hp⟩

theorem accum_or {n : Nat} {p : Nat → Bool} {b : Bool} :
    accum n (fun i s => if p i = true then true else s) b = true ↔
      b = true ∨ ∃ i, i < n ∧ p i = true := by
  induction n with
  | zero => simp [accum]
  | succ n ih =>
    simp only [accum]
    split
    · rename_i h; simp only [true_iff]; exact Or.inr ⟨n, by omega, h⟩
    · rename_i h
      rw [ih]
      constructor
      · rintro (h1 | ⟨i, hi, h1⟩)
        · exact Or.inl h1
        · exact Or.inr ⟨i, by omega, h1⟩
      · rintro (h1 | ⟨i, hi, h1⟩)
        · exact Or.inl h1
        · refine Or.inr ⟨i, ?_, h1⟩
          rcases Nat.lt_succ_iff_lt_or_eq.mp hi with h2 | rfl
          · exact h2
          · exact absurd h1 h

theorem accum_ex {n : Nat} {f : Nat → Bool → Bool} {p : Nat → Prop} {b : Bool}
    (h : ∀ i s, i < n → (f i s = true ↔ s = true ∨ p i)) :
    accum n f b = true ↔ b = true ∨ ∃ i, i < n ∧ p i := by
  induction n with
  | zero => simp [accum]
  | succ n ih =>
    rw [accum, h n _ (by omega), ih fun i s hi => h i s (by omega)]
    constructor
    · rintro ((h1 | ⟨i, hi, h1⟩) | h1)
      · exact Or.inl h1
      · exact Or.inr ⟨i, by omega, h1⟩
      · exact Or.inr ⟨n, by omega, h1⟩
    · rintro (h1 | ⟨i, hi, h1⟩)
      · exact Or.inl (Or.inl h1)
      · rcases Nat.lt_succ_iff_lt_or_eq.mp hi with h2 | rfl
        · exact Or.inl (Or.inr ⟨i, h2, h1⟩)
        · exact Or.inr h1

theorem rhsNl_iff {u : Nat → α} {vo : Buf α} :
    rhsNl c u vo = true ↔ ∃ ex, ex < c.nx - 1 ∧ ∃ ey, ey < c.ny - 1 ∧ ∃ ez, ez < c.nz - 1 ∧
      gpNl c u vo ex ey ez 7 = true := by
  unfold rhsNl accum3
  rw [accum_ex (p := fun ex => ∃ ey, ey < c.ny - 1 ∧ ∃ ez, ez < c.nz - 1 ∧
    gpNl c u vo ex ey ez 7 = true)]
  · simp
  intro ex s _
  rw [accum_ex (p := fun ey => ∃ ez, ez < c.nz - 1 ∧ gpNl c u vo ex ey ez 7 = true)]
  intro ey s _
  exact accum_or

/-! ## Prescribed displacements -/

/-- `u` after `set_displ`. -/
def displ3 (c : Cfg α) (eps u : Nat → α) (q : Nat) : α :=
  if q < c.nx * c.ny * c.nz * 3 ∧ BdryDof3 3 c.nx c.ny c.nz q then
    atDof3 3 c.nx c.ny (displVal3 c eps) q else u q

def displ2 (c : Cfg α) (eps u : Nat → α) (q : Nat) : α :=
  if q < c.nx * c.ny * 2 ∧ BdryDof2 2 c.nx c.ny q then
    atDof2 2 c.nx (displVal2 c eps) q else u q

theorem setDispl3_eq (hc : c.Ok) (hd : c.dim = 3) {w : Work α} {eps : Nat → α}
    (hu : w.u.size = c.nx * c.ny * c.nz * 3) :
    setDispl c w eps = .ok { w with u := ⟨c.nx * c.ny * c.nz * 3, displ3 c eps w.u.val⟩ } := by
  unfold setDispl
  rw [if_neg (by omega), if_pos hd]
  obtain ⟨v, h1, h2, h3, h4⟩ := setDispl3D_setTo (eps := eps) hc.nx hc.ny (hc.nz3 hd) w.u hu
  rw [h1, M_bind_ok']
  have : v = ⟨c.nx * c.ny * c.nz * 3, displ3 c eps w.u.val⟩ := by
    refine Buf.ext' h2 fun k => ?_
    unfold displ3
    by_cases hk : k < c.nx * c.ny * c.nz * 3 ∧ BdryDof3 3 c.nx c.ny c.nz k
    · rw [h3 k hk]; exact (if_pos hk).symm
    · rw [h4 k hk]; exact (if_neg hk).symm
  rw [this]; rfl

theorem setDispl2_eq (hc : c.Ok) (hd : c.dim = 2) {w : Work α} {eps : Nat → α}
    (hu : w.u.size = c.nx * c.ny * 2) :
    setDispl c w eps = .ok { w with u := ⟨c.nx * c.ny * 2, displ2 c eps w.u.val⟩ } := by
  unfold setDispl
  rw [if_pos hd]
  obtain ⟨v, h1, h2, h3, h4⟩ := setDispl2D_setTo (eps := eps) hc.nx hc.ny w.u hu
  rw [h1, M_bind_ok']
  have : v = ⟨c.nx * c.ny * 2, displ2 c eps w.u.val⟩ := by
    refine Buf.ext' h2 fun k => ?_
    unfold displ2
    by_cases hk : k < c.nx * c.ny * 2 ∧ BdryDof2 2 c.nx c.ny k
    · rw [h3 k hk]; exact (if_pos hk).symm
    · rw [h4 k hk]; exact (if_neg hk).symm
  rw [this]; rfl

/-! ## Element matrices -/

/-- `Ae` of `get_elem_mat2D`. -/
def elemMat2 (c : Cfg α) (ex ey : Nat) : Nat → α :=
  accum 4 (fun gp (Ae : Nat → α) => fun q =>
    let i := q / 8
    let j := q % 8
    accum 3 (fun k s => s + bmat2D c.dx c.dy gp k i
      * accum 3 (fun l t => t + ctan2D (matOf c (c.el ex ey 0)) k l * bmat2D c.dx c.dy gp l j) 0
      * wg2D c) (Ae q)) (fun _ => 0)

theorem getElemMat2D_eq (hc : c.Ok) (hd : c.dim = 2) {ex ey : Nat} (hx : ex < c.nx - 1)
    (hy : ey < c.ny - 1) : getElemMat2D c ex ey = .ok ⟨64, elemMat2 c ex ey⟩ := by
  unfold getElemMat2D
  rw [getMaterial_eq hc.micro (by rw [hc.elem, nelem2 hd]; exact gloElem2D_lt hx hy)]
  rfl

/-- Perturbation step of `get_ctan_plast_pert`. -/
def pertEps (eps : Nat → α) (i j : Nat) : α :=
  if j = i then eps j + (1.0e-8 : α) else eps j

/-- `ctan` at a Gauss point. -/
def gpCtan (c : Cfg α) (u : Nat → α) (vo : Buf α) (ex ey ez gp : Nat) : Nat → Nat → α :=
  let m := matOf c (c.el ex ey ez)
  if m.plasticity = true then
    accum 6 (fun i t j l => if l = i then
      (sig3 m vo (c.el ex ey ez) gp (pertEps (strain3 c u ex ey ez gp) i) j
        - gpSig c u vo ex ey ez gp j) / (1.0e-8 : α) else t j l) (fun _ _ => 0)
  else ctan3D m

/-- `vars_new` after the tangent of a Gauss point. -/
def gpCtanPut (c : Cfg α) (u : Nat → α) (vo : Buf α) (ex ey ez gp : Nat) (v : Buf α) : Buf α :=
  let m := matOf c (c.el ex ey ez)
  if m.plasticity = true then
    accum 6 (fun i v => put3 m vo (c.el ex ey ez) gp (pertEps (strain3 c u ex ey ez gp) i) v)
      (gpPut c u vo ex ey ez gp v)
  else v

@[simp] theorem gpCtanPut_size (u : Nat → α) (vo : Buf α) (ex ey ez gp : Nat) (v : Buf α) :
    (gpCtanPut c u vo ex ey ez gp v).size = v.size := by
  unfold gpCtanPut
  simp only
  split
  · rw [accum_size (fun _ _ => put3_size ..), gpPut_size]
  · rfl

theorem getCtanPlastPert_eq (hc : c.Ok) (hd : c.dim = 3) {u vo vn : Buf α} {ex ey ez gp : Nat}
    (hu : u.size = c.nx * c.ny * c.nz * 3) (ho : vo.size = c.numIntVars)
    (hn : vn.size = c.numIntVars) (hx : ex < c.nx - 1) (hy : ey < c.ny - 1) (hz : ez < c.nz - 1)
    (hg : gp < 8) (hp : (matOf c (c.el ex ey ez)).plasticity = true) :
    getCtanPlastPert c u vo vn ex ey ez gp = .ok
      { ctan := gpCtan c u.val vo ex ey ez gp, varsNew := gpCtanPut c u.val vo ex ey ez gp vn } := by
  unfold getCtanPlastPert
  simp only
  rw [getStrain3D_eq hu hx hy hz, M_bind_ok', getStress3D_pure hc hd hx hy hz hg ho hn, M_bind_ok']
  simp only
  obtain ⟨h1, -⟩ := loop_pure_inv (n := 6)
    (P := fun s : CtanOut α => s.varsNew.size = c.numIntVars)
    (f := fun i s => do
      let r ← getStress3D c vo s.varsNew ex ey ez gp
        (fun j => if j = i then strain3 c u.val ex ey ez gp j + (1.0e-8 : α)
          else strain3 c u.val ex ey ez gp j)
      pure { ctan := fun j l => if l = i then (r.stress j
               - sig3 (matOf c (c.el ex ey ez)) vo (c.el ex ey ez) gp
                 (strain3 c u.val ex ey ez gp) j) / (1.0e-8 : α) else s.ctan j l
             varsNew := r.varsNew })
    (g := fun i s =>
      { ctan := fun j l => if l = i then
          (sig3 (matOf c (c.el ex ey ez)) vo (c.el ex ey ez) gp
            (pertEps (strain3 c u.val ex ey ez gp) i) j
            - gpSig c u.val vo ex ey ez gp j) / (1.0e-8 : α) else s.ctan j l
        varsNew := put3 (matOf c (c.el ex ey ez)) vo (c.el ex ey ez) gp
          (pertEps (strain3 c u.val ex ey ez gp) i) s.varsNew })
    (by
      intro i s hi hs
      rw [getStress3D_pure hc hd hx hy hz hg ho hs]
      exact ⟨rfl, by simpa using hs⟩)
    { ctan := fun _ _ => 0
      varsNew := put3 (matOf c (c.el ex ey ez)) vo (c.el ex ey ez) gp
        (strain3 c u.val ex ey ez gp) vn } (by simpa using hn)
  rw [h1]
  unfold gpCtan gpCtanPut
  simp only [hp, if_true]
  rfl

/-- `Ae` of `get_elem_mat3D`. -/
def elemMat3 (c : Cfg α) (u : Nat → α) (vo : Buf α) (ex ey ez : Nat) : Nat → α :=
  accum 8 (fun gp (Ae : Nat → α) => fun q =>
    let i := q / 24
    let j := q % 24
    accum 6 (fun k t => t + bmat3D c.dx c.dy c.dz gp k i
      * accum 6 (fun l y => y + gpCtan c u vo ex ey ez gp k l * bmat3D c.dx c.dy c.dz gp l j) 0
      * wg3D c) (Ae q)) (fun _ => 0)

/-- `vars_new` after an element matrix. -/
def elemMatPut (c : Cfg α) (u : Nat → α) (vo : Buf α) (ex ey ez : Nat) (v : Buf α) : Buf α :=
  accum 8 (fun gp v => gpCtanPut c u vo ex ey ez gp v) v

@[simp] theorem elemMatPut_size (u : Nat → α) (vo : Buf α) (ex ey ez : Nat) (v : Buf α) :
    (elemMatPut c u vo ex ey ez v).size = v.size :=
  accum_size (fun _ _ => gpCtanPut_size ..) v

theorem getElemMat3D_eq (hc : c.Ok) (hd : c.dim = 3) {u vo vn : Buf α} {ex ey ez : Nat}
    (hu : u.size = c.nx * c.ny * c.nz * 3) (ho : vo.size = c.numIntVars)
    (hn : vn.size = c.numIntVars) (hx : ex < c.nx - 1) (hy : ey < c.ny - 1) (hz : ez < c.nz - 1) :
    getElemMat3D c u vo vn ex ey ez = .ok
      { Ae := elemMat3 c u.val vo ex ey ez, varsNew := elemMatPut c u.val vo ex ey ez vn } := by
  unfold getElemMat3D
  have he : gloElem3D c.nx c.ny ex ey ez < c.elemType.size := by
    rw [hc.elem, nelem3 hd]; exact gloElem3D_lt hx hy hz
  rw [getMaterial_eq hc.micro he, M_bind_ok']
  obtain ⟨h1, -⟩ := loop_pure_inv (n := 8)
    (P := fun s : ElemMat α => s.varsNew.size = c.numIntVars)
    (f := fun gp s => do
      let r ← if (matOf c (gloElem3D c.nx c.ny ex ey ez)).plasticity = true then
          getCtanPlastPert c u vo s.varsNew ex ey ez gp
        else pure { ctan := ctan3D (matOf c (gloElem3D c.nx c.ny ex ey ez)), varsNew := s.varsNew }
      pure { Ae := fun q =>
               let i := q / 24
               let j := q % 24
               accum 6 (fun k t => t + bmat3D c.dx c.dy c.dz gp k i
                 * accum 6 (fun l y => y + r.ctan k l * bmat3D c.dx c.dy c.dz gp l j) 0
                 * wg3D c) (s.Ae q)
             varsNew := r.varsNew })
    (g := fun gp s =>
      { Ae := fun q =>
          let i := q / 24
          let j := q % 24
          accum 6 (fun k t => t + bmat3D c.dx c.dy c.dz gp k i
            * accum 6 (fun l y => y + gpCtan c u.val vo ex ey ez gp k l
              * bmat3D c.dx c.dy c.dz gp l j) 0 * wg3D c) (s.Ae q)
        varsNew := gpCtanPut c u.val vo ex ey ez gp s.varsNew })
    (by
      intro gp s hg hs
      refine ⟨?_, by simpa using hs⟩
      by_cases hp : (matOf c (gloElem3D c.nx c.ny ex ey ez)).plasticity = true
      · rw [if_pos hp, getCtanPlastPert_eq hc hd hu ho hs hx hy hz hg hp]
        rfl
      · rw [if_neg hp]
        have e1 : gpCtan c u.val vo ex ey ez gp = ctan3D (matOf c (gloElem3D c.nx c.ny ex ey ez)) :=
          if_neg hp
        have e2 : gpCtanPut c u.val vo ex ey ez gp s.varsNew = s.varsNew := if_neg hp
        rw [e1, e2]
        rfl)
    { Ae := fun _ => 0, varsNew := vn } hn
  rw [h1]
  rfl

/-! ## Averages -/

/-- Σ over elements and Gauss points as computed by the averaging loops. -/
def aveSig3 (c : Cfg α) (u : Nat → α) (vo : Buf α) : Nat → α :=
  accum3 (c.nx - 1) (c.ny - 1) (c.nz - 1) (fun ex ey ez a v =>
    a v + accum 8 (fun gp (b : Nat → α) v => b v + gpSig c u vo ex ey ez gp v * wg3D c)
      (fun _ => 0) v) (fun _ => 0)

def aveSig2 (c : Cfg α) (u : Nat → α) : Nat → α :=
  accum2 (c.nx - 1) (c.ny - 1) (fun ex ey a v =>
    a v + accum 4 (fun gp (b : Nat → α) v => b v
      + sig2 (matOf c (c.el ex ey 0)) (strain2 c u ex ey gp) v * wg2D c) (fun _ => 0) v) (fun _ => 0)

def aveEps3 (c : Cfg α) (u : Nat → α) : Nat → α :=
  accum3 (c.nx - 1) (c.ny - 1) (c.nz - 1) (fun ex ey ez a v =>
    a v + accum 8 (fun gp (b : Nat → α) v => b v + strain3 c u ex ey ez gp v * wg3D c)
      (fun _ => 0) v) (fun _ => 0)

def aveEps2 (c : Cfg α) (u : Nat → α) : Nat → α :=
  accum2 (c.nx - 1) (c.ny - 1) (fun ex ey a v =>
    a v + accum 4 (fun gp (b : Nat → α) v => b v + strain2 c u ex ey gp v * wg2D c)
      (fun _ => 0) v) (fun _ => 0)

theorem aveStressElem3D_eq (hc : c.Ok) (hd : c.dim = 3) {u vo : Buf α} {ex ey ez : Nat}
    {s : AveState α} (hu : u.size = c.nx * c.ny * c.nz * 3) (ho : vo.size = c.numIntVars)
    (hn : s.varsNew.size = c.numIntVars) (hx : ex < c.nx - 1) (hy : ey < c.ny - 1)
    (hz : ez < c.nz - 1) :
    aveStressElem3D c u vo ex ey ez s = .ok
      { ave := fun v => s.ave v + accum 8 (fun gp (b : Nat → α) v => b v
          + gpSig c u.val vo ex ey ez gp v * wg3D c) (fun _ => 0) v
        varsNew := elemPut c u.val vo ex ey ez s.varsNew } := by
  unfold aveStressElem3D
  obtain ⟨h1, -⟩ := loop_pure_inv (n := 8)
    (P := fun s : AveState α => s.varsNew.size = c.numIntVars)
    (f := fun gp (a : AveState α) => do
      let eps ← getStrain3D c u ex ey ez gp
      let sig ← getStress3D c vo a.varsNew ex ey ez gp eps
      pure { ave := fun v => a.ave v + sig.stress v * wg3D c, varsNew := sig.varsNew })
    (g := fun gp a =>
      { ave := fun v => a.ave v + gpSig c u.val vo ex ey ez gp v * wg3D c
        varsNew := gpPut c u.val vo ex ey ez gp a.varsNew })
    (by
      intro gp s hg hs
      rw [getStrain3D_eq hu hx hy hz, M_bind_ok', getStress3D_pure hc hd hx hy hz hg ho hs]
      exact ⟨rfl, by simpa using hs⟩)
    { ave := fun _ => 0, varsNew := s.varsNew } hn
  rw [h1]
  rfl

theorem aveStressElem2D_eq (hc : c.Ok) (hd : c.dim = 2) {u : Buf α} {ex ey : Nat}
    {a : Nat → α} (hu : u.size = c.nx * c.ny * 2) (hx : ex < c.nx - 1) (hy : ey < c.ny - 1) :
    aveStressElem2D c u ex ey a = .ok (fun v => a v + accum 4 (fun gp (b : Nat → α) v => b v
      + sig2 (matOf c (c.el ex ey 0)) (strain2 c u.val ex ey gp) v * wg2D c) (fun _ => 0) v) := by
  unfold aveStressElem2D
  rw [loop_pure (g := fun gp (b : Nat → α) v => b v
      + sig2 (matOf c (c.el ex ey 0)) (strain2 c u.val ex ey gp) v * wg2D c) (by
    intro gp b hg
    rw [getStrain2D_eq hu hx hy, M_bind_ok', getStress2D_pure hc hd hx hy]
    rfl)]
  rfl

theorem calcAveStress3_eq (hc : c.Ok) (hd : c.dim = 3) {w : Work α}
    (hu : w.u.size = c.nx * c.ny * c.nz * 3) (ho : w.varsOld.size = c.numIntVars)
    (hn : w.varsNew.size = c.numIntVars) :
    calcAveStress c w = .ok
      { ave := fun v => aveSig3 c w.u.val w.varsOld v / (c.lx * c.ly)
        varsNew := allPut c w.u.val w.varsOld w.varsNew } := by
  unfold calcAveStress
  rw [if_neg (by omega), if_pos hd]
  obtain ⟨h1, -⟩ := loop3_pure (a := c.nx - 1) (b := c.ny - 1) (c := c.nz - 1)
    (P := fun s : AveState α => s.varsNew.size = c.numIntVars)
    (f := fun ex ey ez s => aveStressElem3D c w.u w.varsOld ex ey ez s)
    (g := fun ex ey ez s =>
      { ave := fun v => s.ave v + accum 8 (fun gp (b : Nat → α) v => b v
          + gpSig c w.u.val w.varsOld ex ey ez gp v * wg3D c) (fun _ => 0) v
        varsNew := elemPut c w.u.val w.varsOld ex ey ez s.varsNew })
    (by
      intro ex ey ez s hx hy hz hs
      exact ⟨aveStressElem3D_eq hc hd hu ho hs hx hy hz, by simpa using hs⟩)
    { ave := fun _ => 0, varsNew := w.varsNew } hn
  rw [h1, M_bind_ok']
  have e1 := accum3_proj (a := c.nx - 1) (b := c.ny - 1) (c := c.nz - 1) AveState.ave
    (g := fun ex ey ez (s : AveState α) =>
      { ave := fun v => s.ave v + accum 8 (fun gp (b : Nat → α) v => b v
          + gpSig c w.u.val w.varsOld ex ey ez gp v * wg3D c) (fun _ => 0) v
        varsNew := elemPut c w.u.val w.varsOld ex ey ez s.varsNew })
    (h := fun ex ey ez a v =>
      a v + accum 8 (fun gp (b : Nat → α) v => b v + gpSig c w.u.val w.varsOld ex ey ez gp v
        * wg3D c) (fun _ => 0) v) (fun _ _ _ _ => rfl) { ave := fun _ => 0, varsNew := w.varsNew }
  have e2 := accum3_proj (a := c.nx - 1) (b := c.ny - 1) (c := c.nz - 1) AveState.varsNew
    (g := fun ex ey ez (s : AveState α) =>
      { ave := fun v => s.ave v + accum 8 (fun gp (b : Nat → α) v => b v
          + gpSig c w.u.val w.varsOld ex ey ez gp v * wg3D c) (fun _ => 0) v
        varsNew := elemPut c w.u.val w.varsOld ex ey ez s.varsNew })
    (h := fun ex ey ez v => elemPut c w.u.val w.varsOld ex ey ez v) (fun _ _ _ _ => rfl)
    { ave := fun _ => 0, varsNew := w.varsNew }
  rw [e1, e2]
  rfl

theorem calcAveStress2_eq (hc : c.Ok) (hd : c.dim = 2) {w : Work α}
    (hu : w.u.size = c.nx * c.ny * 2) :
    calcAveStress c w = .ok
      { ave := fun v => aveSig2 c w.u.val v / (c.lx * c.ly), varsNew := w.varsNew } := by
  unfold calcAveStress
  rw [if_pos hd]
  obtain ⟨h1, -⟩ := loop2_pure (a := c.nx - 1) (b := c.ny - 1) (P := fun _ : Nat → α => True)
    (f := fun ex ey s => aveStressElem2D c w.u ex ey s)
    (g := fun ex ey a v => a v + accum 4 (fun gp (b : Nat → α) v => b v
      + sig2 (matOf c (c.el ex ey 0)) (strain2 c w.u.val ex ey gp) v * wg2D c) (fun _ => 0) v)
    (by
      intro ex ey s hx hy _
      exact ⟨aveStressElem2D_eq hc hd hu hx hy, trivial⟩)
    (fun _ => 0) trivial
  rw [h1]
  rfl

theorem calcAveStrain3_eq (hd : c.dim = 3) {u : Buf α} (hu : u.size = c.nx * c.ny * c.nz * 3) :
    calcAveStrain c u = .ok (fun v => aveEps3 c u.val v / (c.lx * c.ly)) := by
  unfold calcAveStrain
  rw [if_neg (by omega), if_pos hd]
  obtain ⟨h1, -⟩ := loop3_pure (a := c.nx - 1) (b := c.ny - 1) (c := c.nz - 1)
    (P := fun _ : Nat → α => True)
    (f := fun ex ey ez (a : Nat → α) => do
        let aux ← loop 8 (fun gp (aux : Nat → α) => do
          let eps ← getStrain3D c u ex ey ez gp
          pure (fun v => aux v + eps v * wg3D c)) (fun _ => 0)
        pure (fun v => a v + aux v))
    (g := fun ex ey ez a v =>
      a v + accum 8 (fun gp (b : Nat → α) v => b v + strain3 c u.val ex ey ez gp v * wg3D c)
        (fun _ => 0) v)
    (by
      intro ex ey ez s hx hy hz _
      refine ⟨?_, trivial⟩
      rw [loop_pure (g := fun gp (b : Nat → α) v => b v + strain3 c u.val ex ey ez gp v * wg3D c) (by
        intro gp b hg
        rw [getStrain3D_eq hu hx hy hz]
        rfl)]
      rfl)
    (fun _ => 0) trivial
  rw [h1]
  rfl

theorem calcAveStrain2_eq (hd : c.dim = 2) {u : Buf α} (hu : u.size = c.nx * c.ny * 2) :
    calcAveStrain c u = .ok (fun v => aveEps2 c u.val v / (c.lx * c.ly)) := by
  unfold calcAveStrain
  rw [if_pos hd]
  obtain ⟨h1, -⟩ := loop2_pure (a := c.nx - 1) (b := c.ny - 1)
    (P := fun _ : Nat → α => True)
    (f := fun ex ey (a : Nat → α) => do
        let aux ← loop 4 (fun gp (aux : Nat → α) => do
          let eps ← getStrain2D c u ex ey gp
          pure (fun v => aux v + eps v * wg2D c)) (fun _ => 0)
        pure (fun v => a v + aux v))
    (g := fun ex ey a v =>
      a v + accum 4 (fun gp (b : Nat → α) v => b v + strain2 c u.val ex ey gp v * wg2D c)
        (fun _ => 0) v)
    (by
      intro ex ey s hx hy _
      refine ⟨?_, trivial⟩
      rw [loop_pure (g := fun gp (b : Nat → α) v => b v + strain2 c u.val ex ey gp v * wg2D c) (by
        intro gp b hg
        rw [getStrain2D_eq hu hx hy]
        rfl)]
      rfl)
    (fun _ => 0) trivial
  rw [h1]
  rfl

end Verif
