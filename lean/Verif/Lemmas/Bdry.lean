import Verif.Lemmas.EllBcOp
import Verif.Model.Assembly

/-! # Sweeps over the boundary nodes -/

namespace Verif
open Spec

variable {α : Type} [Scalar α]

/-- A function of node position and field as a function of the dof number. -/
def atDof3 {β : Type} (nF nx ny : Nat) (g : Nat → Nat → Nat → Nat → β) (q : Nat) : β :=
  g (q / nF % nx) (q / nF / nx % ny) (q / nF / nx / ny) (q % nF)

/-- A function of node position and field as a function of the dof number. -/
def atDof2 {β : Type} (nF nx : Nat) (g : Nat → Nat → Nat → β) (q : Nat) : β :=
  g (q / nF % nx) (q / nF / nx) (q % nF)

theorem node3_decode {nx ny i j k : Nat} (hi : i < nx) (hj : j < ny) :
    node3 nx ny i j k % nx = i ∧ node3 nx ny i j k / nx % ny = j ∧
      node3 nx ny i j k / nx / ny = k := by
  have e : node3 nx ny i j k = (k * ny + j) * nx + i := by unfold node3; ring
  rw [e, mul_add_mod' hi, mul_add_div' hi, mul_add_mod' hj, mul_add_div' hj]
  exact ⟨rfl, rfl, rfl⟩

theorem node2_decode {nx i j : Nat} (hi : i < nx) :
    node2 nx i j % nx = i ∧ node2 nx i j / nx = j := by
  have e : node2 nx i j = j * nx + i := by unfold node2; ring
  rw [e, mul_add_mod' hi, mul_add_div' hi]
  exact ⟨rfl, rfl⟩

theorem atDof3_node {β : Type} {nF nx ny i j k d : Nat} (g : Nat → Nat → Nat → Nat → β)
    (hi : i < nx) (hj : j < ny) (hd : d < nF) :
    atDof3 nF nx ny g (node3 nx ny i j k * nF + d) = g i j k d := by
  obtain ⟨h1, h2, h3⟩ := node3_decode (k := k) hi hj
  unfold atDof3
  rw [mul_add_div' hd, mul_add_mod' hd, h1, h2, h3]

theorem atDof2_node {β : Type} {nF nx i j d : Nat} (g : Nat → Nat → Nat → β)
    (hi : i < nx) (hd : d < nF) :
    atDof2 nF nx g (node2 nx i j * nF + d) = g i j d := by
  obtain ⟨h1, h2⟩ := node2_decode (j := j) hi
  unfold atDof2
  rw [mul_add_div' hd, mul_add_mod' hd, h1, h2]

/-- The dofs of node `n`. -/
def NodeSet (nF n q : Nat) : Prop := ∃ d, d < nF ∧ q = n * nF + d

theorem setNode_setTo {dim n nn : Nat} {f : Nat → α} {c : Nat → α} (hn : n < nn)
    (hc : ∀ d, d < dim → f d = c (n * dim + d)) :
    SetTo (nn * dim) c (NodeSet dim n) (setNode dim n f) := by
  unfold setNode
  exact SetTo.loop fun d hd => SetTo.write (mul_add_lt hn hd) (hc d hd)

theorem zeroNode_setTo {dim n nn : Nat} {c : Nat → α} (hn : n < nn)
    (hc : ∀ d, d < dim → c (n * dim + d) = 0) :
    SetTo (nn * dim) c (NodeSet dim n) (zeroNode dim n) := by
  unfold zeroNode
  exact SetTo.loop fun d hd => SetTo.write (mul_add_lt hn hd) (hc d hd).symm

theorem dof_surj3 {nF nx ny nz q : Nat} (hq : q < nx * ny * nz * nF) :
    ∃ i j k d, i < nx ∧ j < ny ∧ k < nz ∧ d < nF ∧ q = node3 nx ny i j k * nF + d := by
  have hF : 0 < nF := by
    rcases Nat.eq_zero_or_pos nF with h | h
    · simp [h] at hq
    · exact h
  obtain ⟨i, j, k, hi, hj, hk, e⟩ := node3_surj (n := q / nF)
    (Nat.div_lt_of_lt_mul (by rw [Nat.mul_comm]; exact hq))
  refine ⟨i, j, k, q % nF, hi, hj, hk, Nat.mod_lt _ hF, ?_⟩
  rw [← e, Nat.mul_comm, Nat.div_add_mod]

theorem dof_surj2 {nF nx ny q : Nat} (hq : q < nx * ny * nF) :
    ∃ i j d, i < nx ∧ j < ny ∧ d < nF ∧ q = node2 nx i j * nF + d := by
  have hF : 0 < nF := by
    rcases Nat.eq_zero_or_pos nF with h | h
    · simp [h] at hq
    · exact h
  obtain ⟨i, j, hi, hj, e⟩ := node2_surj (n := q / nF)
    (Nat.div_lt_of_lt_mul (by rw [Nat.mul_comm]; exact hq))
  refine ⟨i, j, q % nF, hi, hj, Nat.mod_lt _ hF, ?_⟩
  rw [← e, Nat.mul_comm, Nat.div_add_mod]

/-- The six loops over the faces of the grid. -/
theorem sweep3_setTo {nF nx ny nz N : Nat} {c : Nat → α}
    {f1 f2 f3 f4 f5 f6 : Nat → Nat → Buf α → M (Buf α)} (hN : N = nx * ny * nz * nF)
    (hx : 2 ≤ nx) (hy : 2 ≤ ny) (hz : 2 ≤ nz)
    (h1 : ∀ i j, i < nx → j < ny → SetTo N c (NodeSet nF (node3 nx ny i j 0)) (f1 i j))
    (h2 : ∀ i j, i < nx → j < ny → SetTo N c (NodeSet nF (node3 nx ny i j (nz - 1))) (f2 i j))
    (h3 : ∀ i k, i < nx → 1 ≤ k → k < nz - 1 → SetTo N c (NodeSet nF (node3 nx ny i 0 k)) (f3 i k))
    (h4 : ∀ i k, i < nx → 1 ≤ k → k < nz - 1 →
      SetTo N c (NodeSet nF (node3 nx ny i (ny - 1) k)) (f4 i k))
    (h5 : ∀ j k, 1 ≤ j → j < ny - 1 → 1 ≤ k → k < nz - 1 →
      SetTo N c (NodeSet nF (node3 nx ny 0 j k)) (f5 j k))
    (h6 : ∀ j k, 1 ≤ j → j < ny - 1 → 1 ≤ k → k < nz - 1 →
      SetTo N c (NodeSet nF (node3 nx ny (nx - 1) j k)) (f6 j k)) :
    SetTo N c (fun q => q < N ∧ BdryDof3 nF nx ny nz q) (fun b => do
      let b ← loop nx (fun i b => loop ny (fun j b => f1 i j b) b) b
      let b ← loop nx (fun i b => loop ny (fun j b => f2 i j b) b) b
      let b ← loop nx (fun i b => loopFrom 1 (nz - 1) (fun k b => f3 i k b) b) b
      let b ← loop nx (fun i b => loopFrom 1 (nz - 1) (fun k b => f4 i k b) b) b
      let b ← loopFrom 1 (ny - 1) (fun j b => loopFrom 1 (nz - 1) (fun k b => f5 j k b) b) b
      loopFrom 1 (ny - 1) (fun j b => loopFrom 1 (nz - 1) (fun k b => f6 j k b) b) b) := by
  have H :=
    (SetTo.loop (n := nx) fun i hi => SetTo.loop (n := ny) fun j hj => h1 i j hi hj).bind <|
    (SetTo.loop (n := nx) fun i hi => SetTo.loop (n := ny) fun j hj => h2 i j hi hj).bind <|
    (SetTo.loop (n := nx) fun i hi => SetTo.loopFrom (a := 1) (b := nz - 1) fun k ha hb =>
      h3 i k hi ha hb).bind <|
    (SetTo.loop (n := nx) fun i hi => SetTo.loopFrom (a := 1) (b := nz - 1) fun k ha hb =>
      h4 i k hi ha hb).bind <|
    (SetTo.loopFrom (a := 1) (b := ny - 1) fun j hj hj' =>
      SetTo.loopFrom (a := 1) (b := nz - 1) fun k ha hb => h5 j k hj hj' ha hb).bind <|
    (SetTo.loopFrom (a := 1) (b := ny - 1) fun j hj hj' =>
      SetTo.loopFrom (a := 1) (b := nz - 1) fun k ha hb => h6 j k hj hj' ha hb)
  refine SetTo.congr H ?_
  intro q
  have key : ∀ {i j k d}, i < nx → j < ny → k < nz → d < nF → Bdry3 nx ny nz i j k →
      node3 nx ny i j k * nF + d < N ∧ BdryDof3 nF nx ny nz (node3 nx ny i j k * nF + d) := by
    intro i j k d hi hj hk hd hb
    refine ⟨by rw [hN]; exact mul_add_lt (node3_lt hi hj hk) hd, ?_⟩
    obtain ⟨e1, e2, e3⟩ := node3_decode (k := k) hi hj
    unfold BdryDof3
    rw [mul_add_div' hd, e1, e2, e3]; exact hb
  constructor
  · rintro (⟨i, hi, j, hj, d, hd, rfl⟩ | ⟨i, hi, j, hj, d, hd, rfl⟩ |
      ⟨i, hi, k, hk, hk', d, hd, rfl⟩ | ⟨i, hi, k, hk, hk', d, hd, rfl⟩ |
      ⟨j, hj, hj', k, hk, hk', d, hd, rfl⟩ | ⟨j, hj, hj', k, hk, hk', d, hd, rfl⟩)
    · exact key hi hj (by omega) hd (by unfold Bdry3; omega)
    · exact key hi hj (by omega) hd (by unfold Bdry3; omega)
    · exact key hi (by omega) (by omega) hd (by unfold Bdry3; omega)
    · exact key hi (by omega) (by omega) hd (by unfold Bdry3; omega)
    · exact key (by omega) (by omega) (by omega) hd (by unfold Bdry3; omega)
    · exact key (by omega) (by omega) (by omega) hd (by unfold Bdry3; omega)
  · rintro ⟨hq, hb⟩
    obtain ⟨i, j, k, d, hi, hj, hk, hd, rfl⟩ := dof_surj3 (hN ▸ hq)
    obtain ⟨e1, e2, e3⟩ := node3_decode (k := k) hi hj
    unfold BdryDof3 at hb
    rw [mul_add_div' hd, e1, e2, e3] at hb
    by_cases k0 : k = 0
    · subst k0; exact Or.inl ⟨i, hi, j, hj, d, hd, rfl⟩
    by_cases k1 : k + 1 = nz
    · have : k = nz - 1 := by omega
      subst this; exact Or.inr (Or.inl ⟨i, hi, j, hj, d, hd, rfl⟩)
    by_cases j0 : j = 0
    · subst j0; exact Or.inr (Or.inr (Or.inl ⟨i, hi, k, by omega, by omega, d, hd, rfl⟩))
    by_cases j1 : j + 1 = ny
    · have : j = ny - 1 := by omega
      subst this
      exact Or.inr (Or.inr (Or.inr (Or.inl ⟨i, hi, k, by omega, by omega, d, hd, rfl⟩)))
    by_cases i0 : i = 0
    · subst i0
      exact Or.inr (Or.inr (Or.inr (Or.inr (Or.inl
        ⟨j, by omega, by omega, k, by omega, by omega, d, hd, rfl⟩))))
    have : i = nx - 1 := by unfold Bdry3 at hb; omega
    subst this
    exact Or.inr (Or.inr (Or.inr (Or.inr (Or.inr
      ⟨j, by omega, by omega, k, by omega, by omega, d, hd, rfl⟩))))

/-- The four loops over the sides of the grid. -/
theorem sweep2_setTo {nF nx ny N : Nat} {c : Nat → α}
    {f1 f2 f3 f4 : Nat → Buf α → M (Buf α)} (hN : N = nx * ny * nF)
    (hx : 2 ≤ nx) (hy : 2 ≤ ny)
    (h1 : ∀ i, i < nx → SetTo N c (NodeSet nF (node2 nx i 0)) (f1 i))
    (h2 : ∀ i, i < nx → SetTo N c (NodeSet nF (node2 nx i (ny - 1))) (f2 i))
    (h3 : ∀ t, t < ny - 2 → SetTo N c (NodeSet nF (node2 nx 0 (t + 1))) (f3 t))
    (h4 : ∀ t, t < ny - 2 → SetTo N c (NodeSet nF (node2 nx (nx - 1) (t + 1))) (f4 t)) :
    SetTo N c (fun q => q < N ∧ BdryDof2 nF nx ny q) (fun b => do
      let b ← loop nx (fun i b => f1 i b) b
      let b ← loop nx (fun i b => f2 i b) b
      let b ← loop (ny - 2) (fun i b => f3 i b) b
      loop (ny - 2) (fun i b => f4 i b) b) := by
  have H :=
    (SetTo.loop (n := nx) fun i hi => h1 i hi).bind <|
    (SetTo.loop (n := nx) fun i hi => h2 i hi).bind <|
    (SetTo.loop (n := ny - 2) fun i hi => h3 i hi).bind <|
    (SetTo.loop (n := ny - 2) fun i hi => h4 i hi)
  refine SetTo.congr H ?_
  intro q
  have key : ∀ {i j d}, i < nx → j < ny → d < nF → Bdry2 nx ny i j →
      node2 nx i j * nF + d < N ∧ BdryDof2 nF nx ny (node2 nx i j * nF + d) := by
    intro i j d hi hj hd hb
    refine ⟨by rw [hN]; exact mul_add_lt (node2_lt hi hj) hd, ?_⟩
    obtain ⟨e1, e2⟩ := node2_decode (j := j) hi
    unfold BdryDof2
    rw [mul_add_div' hd, e1, e2]; exact hb
  constructor
  · rintro (⟨i, hi, d, hd, rfl⟩ | ⟨i, hi, d, hd, rfl⟩ | ⟨t, ht, d, hd, rfl⟩ | ⟨t, ht, d, hd, rfl⟩)
    · exact key hi (by omega) hd (by unfold Bdry2; omega)
    · exact key hi (by omega) hd (by unfold Bdry2; omega)
    · exact key (by omega) (by omega) hd (by unfold Bdry2; omega)
    · exact key (by omega) (by omega) hd (by unfold Bdry2; omega)
  · rintro ⟨hq, hb⟩
    obtain ⟨i, j, d, hi, hj, hd, rfl⟩ := dof_surj2 (hN ▸ hq)
    obtain ⟨e1, e2⟩ := node2_decode (j := j) hi
    unfold BdryDof2 at hb
    rw [mul_add_div' hd, e1, e2] at hb
    by_cases j0 : j = 0
    · subst j0; exact Or.inl ⟨i, hi, d, hd, rfl⟩
    by_cases j1 : j + 1 = ny
    · have : j = ny - 1 := by omega
      subst this; exact Or.inr (Or.inl ⟨i, hi, d, hd, rfl⟩)
    obtain ⟨t, rfl⟩ : ∃ t, j = t + 1 := ⟨j - 1, by omega⟩
    by_cases i0 : i = 0
    · subst i0; exact Or.inr (Or.inr (Or.inl ⟨t, by omega, d, hd, rfl⟩))
    have : i = nx - 1 := by unfold Bdry2 at hb; omega
    subst this
    exact Or.inr (Or.inr (Or.inr ⟨t, by omega, d, hd, rfl⟩))

/-- Node numbers as the 2D loops write them. -/
theorem side_nodes {nx ny : Nat} (hx : 2 ≤ nx) :
    (∀ i, i = node2 nx i 0) ∧ (∀ i, i + (ny - 1) * nx = node2 nx i (ny - 1)) ∧
    (∀ t, (t + 1) * nx = node2 nx 0 (t + 1)) ∧
    (∀ t, (t + 2) * nx - 1 = node2 nx (nx - 1) (t + 1)) := by
  refine ⟨fun i => by simp [node2], fun i => by unfold node2; ring, fun t => by unfold node2; ring,
    fun t => ?_⟩
  rw [node2_eq, Nat.add_mul, Nat.add_mul]; omega

/-! ## Prescribed displacements -/

/-- Displacement `set_displ` writes at node `(i,j,k)`. -/
def displVal3 (c : Cfg α) (eps : Nat → α) (i j k d : Nat) : α :=
  if k = 0 then affine3 eps ((i : Nat) * c.dx) ((j : Nat) * c.dy) 0 d
  else if k + 1 = c.nz then affine3 eps ((i : Nat) * c.dx) ((j : Nat) * c.dy) c.lz d
  else if j = 0 then affine3 eps ((i : Nat) * c.dx) 0 ((k : Nat) * c.dz) d
  else if j + 1 = c.ny then affine3 eps ((i : Nat) * c.dx) c.ly ((k : Nat) * c.dz) d
  else if i = 0 then affine3 eps 0 ((j : Nat) * c.dy) ((k : Nat) * c.dz) d
  else affine3 eps c.lx ((j : Nat) * c.dy) ((k : Nat) * c.dz) d

/-- Displacement `set_displ` writes at node `(i,j)`. -/
def displVal2 (c : Cfg α) (eps : Nat → α) (i j d : Nat) : α :=
  if j = 0 then affine2 eps ((i : Nat) * c.dx) 0 d
  else if j + 1 = c.ny then affine2 eps ((i : Nat) * c.dx) c.ly d
  else if i = 0 then affine2 eps 0 ((j : Nat) * c.dy) d
  else affine2 eps c.lx ((j : Nat) * c.dy) d

theorem setDispl3D_setTo {c : Cfg α} {eps : Nat → α} (hx : 2 ≤ c.nx) (hy : 2 ≤ c.ny)
    (hz : 2 ≤ c.nz) :
    SetTo (c.nx * c.ny * c.nz * 3) (atDof3 3 c.nx c.ny (displVal3 c eps))
      (fun q => q < c.nx * c.ny * c.nz * 3 ∧ BdryDof3 3 c.nx c.ny c.nz q) (setDispl3D c eps) := by
  unfold setDispl3D
  refine sweep3_setTo rfl hx hy hz ?_ ?_ ?_ ?_ ?_ ?_
  · intro i j hi hj
    rw [nodIndex_eq]
    refine setNode_setTo (node3_lt hi hj (by omega)) fun d hd => ?_
    rw [atDof3_node _ hi hj hd]; simp [displVal3]
  · intro i j hi hj
    rw [nodIndex_eq]
    refine setNode_setTo (node3_lt hi hj (by omega)) fun d hd => ?_
    rw [atDof3_node _ hi hj hd]; unfold displVal3
    rw [if_neg (by omega), if_pos (by omega)]
  · intro i k hi hk hk'
    rw [nodIndex_eq]
    refine setNode_setTo (node3_lt hi (by omega) (by omega)) fun d hd => ?_
    rw [atDof3_node _ hi (by omega) hd]; unfold displVal3
    rw [if_neg (by omega), if_neg (by omega), if_pos rfl]
  · intro i k hi hk hk'
    rw [nodIndex_eq]
    refine setNode_setTo (node3_lt hi (by omega) (by omega)) fun d hd => ?_
    rw [atDof3_node _ hi (by omega) hd]; unfold displVal3
    rw [if_neg (by omega), if_neg (by omega), if_neg (by omega), if_pos (by omega)]
  · intro j k hj hj' hk hk'
    rw [nodIndex_eq]
    refine setNode_setTo (node3_lt (by omega) (by omega) (by omega)) fun d hd => ?_
    rw [atDof3_node _ (by omega) (by omega) hd]; unfold displVal3
    rw [if_neg (by omega), if_neg (by omega), if_neg (by omega), if_neg (by omega), if_pos rfl]
  · intro j k hj hj' hk hk'
    rw [nodIndex_eq]
    refine setNode_setTo (node3_lt (by omega) (by omega) (by omega)) fun d hd => ?_
    rw [atDof3_node _ (by omega) (by omega) hd]; unfold displVal3
    rw [if_neg (by omega), if_neg (by omega), if_neg (by omega), if_neg (by omega),
      if_neg (by omega)]

theorem setDispl2D_setTo {c : Cfg α} {eps : Nat → α} (hx : 2 ≤ c.nx) (hy : 2 ≤ c.ny) :
    SetTo (c.nx * c.ny * 2) (atDof2 2 c.nx (displVal2 c eps))
      (fun q => q < c.nx * c.ny * 2 ∧ BdryDof2 2 c.nx c.ny q) (setDispl2D c eps) := by
  obtain ⟨e1, e2, e3, e4⟩ := side_nodes (ny := c.ny) hx
  unfold setDispl2D
  refine sweep2_setTo rfl hx hy ?_ ?_ ?_ ?_
  · intro i hi
    rw [show setNode 2 i (affine2 eps ((i : Nat) * c.dx) 0)
      = setNode 2 (node2 c.nx i 0) (affine2 eps ((i : Nat) * c.dx) 0) by rw [← e1 i]]
    refine setNode_setTo (node2_lt hi (by omega)) fun d hd => ?_
    rw [atDof2_node _ hi hd]; simp [displVal2]
  · intro i hi
    rw [e2]
    refine setNode_setTo (node2_lt hi (by omega)) fun d hd => ?_
    rw [atDof2_node _ hi hd]; unfold displVal2
    rw [if_neg (by omega), if_pos (by omega)]
  · intro t ht
    rw [e3]
    refine setNode_setTo (node2_lt (by omega) (by omega)) fun d hd => ?_
    rw [atDof2_node _ (by omega) hd]; unfold displVal2
    rw [if_neg (by omega), if_neg (by omega), if_pos rfl]
  · intro t ht
    rw [e4]
    refine setNode_setTo (node2_lt (by omega) (by omega)) fun d hd => ?_
    rw [atDof2_node _ (by omega) hd]; unfold displVal2
    rw [if_neg (by omega), if_neg (by omega), if_neg (by omega)]

theorem rhsBc3D_setTo {c : Cfg α} (hx : 2 ≤ c.nx) (hy : 2 ≤ c.ny) (hz : 2 ≤ c.nz) :
    SetTo (c.nx * c.ny * c.nz * 3) (fun _ => (0 : α))
      (fun q => q < c.nx * c.ny * c.nz * 3 ∧ BdryDof3 3 c.nx c.ny c.nz q) (rhsBc3D c) := by
  unfold rhsBc3D
  refine sweep3_setTo rfl hx hy hz ?_ ?_ ?_ ?_ ?_ ?_ <;> intros <;> rw [nodIndex_eq] <;>
    exact zeroNode_setTo (node3_lt (by omega) (by omega) (by omega)) fun _ _ => rfl

theorem rhsBc2D_setTo {c : Cfg α} (hx : 2 ≤ c.nx) (hy : 2 ≤ c.ny) :
    SetTo (c.nx * c.ny * 2) (fun _ => (0 : α))
      (fun q => q < c.nx * c.ny * 2 ∧ BdryDof2 2 c.nx c.ny q) (rhsBc2D c) := by
  obtain ⟨e1, e2, e3, e4⟩ := side_nodes (ny := c.ny) hx
  unfold rhsBc2D
  refine sweep2_setTo rfl hx hy ?_ ?_ ?_ ?_
  · intro i hi
    rw [show (zeroNode 2 i : Buf α → M (Buf α)) = zeroNode 2 (node2 c.nx i 0) by rw [← e1 i]]
    exact zeroNode_setTo (node2_lt (by omega) (by omega)) fun _ _ => rfl
  · intro i hi; rw [e2]; exact zeroNode_setTo (node2_lt (by omega) (by omega)) fun _ _ => rfl
  · intro i hi; rw [e3]; exact zeroNode_setTo (node2_lt (by omega) (by omega)) fun _ _ => rfl
  · intro i hi; rw [e4]; exact zeroNode_setTo (node2_lt (by omega) (by omega)) fun _ _ => rfl

end Verif
