import Verif.Lemmas.Mirror

/-! # Images of grids under reflections and permutations of the axes -/

namespace Verif.Spec.Fe
open Finset AxisMap

variable {F F' : Fe} {a : AxisMap}

theorem Good.dims (hF : F.Good) : F.dim = 2 ∨ F.dim = 3 := by
  rcases hF.kind with h | h
  · exact .inl h.1
  · exact .inr h.1

theorem Good.npe_eq (hF : F.Good) : F.npe = if F.dim = 2 then 4 else 8 := by
  rcases hF.kind with ⟨h1, h2, -⟩ | ⟨h1, h2, -⟩ <;> rw [h1, h2] <;> rfl

theorem Good.nvoi_eq (hF : F.Good) : F.nvoi = if F.dim = 2 then 3 else 6 := by
  rcases hF.kind with ⟨h1, -, h2, -⟩ | ⟨h1, -, h2, -⟩ <;> rw [h1, h2] <;> rfl

theorem Good.dim_le (hF : F.Good) : F.dim ≤ 3 := by rcases hF.dims with h | h <;> omega

/-! ## Elements -/

theorem mapPos_eq (a : AxisMap) (e : Nat × Nat × Nat) (k : Nat) :
    F.mapPos a e k = if a.flip k then F.cnt (a.p k) - 1 - pos e (a.p k) else pos e (a.p k) := rfl

theorem pos_mapElem (a : AxisMap) (e : Nat × Nat × Nat) {k : Nat} (hk : k < 3) :
    pos (F.mapElem a e) k = F.mapPos a e k := by
  interval_cases k <;> rfl

theorem mem_elems_pos {e : Nat × Nat × Nat} : e ∈ F.elems ↔ ∀ k, k < 3 → pos e k < F.cnt k := by
  rw [mem_elems]
  constructor
  · rintro ⟨h1, h2, h3⟩ k hk
    interval_cases k
    · exact h1
    · exact h2
    · exact h3
  · intro h
    exact ⟨h 0 (by omega), h 1 (by omega), h 2 (by omega)⟩

theorem pos_ext {e e' : Nat × Nat × Nat} (h : ∀ k, k < 3 → pos e k = pos e' k) : e = e' :=
  Prod.ext (h 0 (by omega)) (Prod.ext (h 1 (by omega)) (h 2 (by omega)))

theorem mapElem_mem (ha : a.Ok F.dim) (hi : F.Image a F') {e : Nat × Nat × Nat} (he : e ∈ F.elems) :
    F.mapElem a e ∈ F'.elems := by
  rw [mem_elems_pos] at he ⊢
  intro k hk
  have := he _ (ha.lt k hk)
  rw [pos_mapElem a e hk, mapPos_eq, hi.cnt k hk]
  split <;> omega

theorem mapElem_inj (ha : a.Ok F.dim) {e e' : Nat × Nat × Nat} (he : e ∈ F.elems) (he' : e' ∈ F.elems)
    (h : F.mapElem a e = F.mapElem a e') : e = e' := by
  rw [mem_elems_pos] at he he'
  refine pos_ext fun k hk => ?_
  have h1 := pos_mapElem (F := F) a e (ha.qlt k hk)
  rw [h, pos_mapElem a e' (ha.qlt k hk), mapPos_eq, mapPos_eq, ha.pq k hk] at h1
  have := he k hk
  have := he' k hk
  split at h1 <;> omega

/-- A product over the axes. -/
theorem prod_axes (ha : a.Ok F.dim) (f : Nat → Nat) : f (a.p 0) * f (a.p 1) * f (a.p 2) = f 0 * f 1 * f 2 := by
  have h0 := ha.lt 0 (by omega)
  have h1 := ha.lt 1 (by omega)
  have h2 := ha.lt 2 (by omega)
  have n01 : a.p 0 ≠ a.p 1 := fun e => by have := ha.inj (by omega) (by omega) e; omega
  have n02 : a.p 0 ≠ a.p 2 := fun e => by have := ha.inj (by omega) (by omega) e; omega
  have n12 : a.p 1 ≠ a.p 2 := fun e => by have := ha.inj (by omega) (by omega) e; omega
  generalize a.p 0 = x at *
  generalize a.p 1 = y at *
  generalize a.p 2 = z at *
  interval_cases x <;> interval_cases y <;> interval_cases z <;> first | omega | ring

theorem card_image (ha : a.Ok F.dim) (hi : F.Image a F') : F'.elems.card = F.elems.card := by
  have h : ∀ G : Fe, G.elems.card = G.cnt 0 * G.cnt 1 * G.cnt 2 := by
    intro G
    unfold elems
    simp only [card_product, card_range, cnt]
    norm_num
    ring
  rw [h, h, hi.cnt 0 (by omega), hi.cnt 1 (by omega), hi.cnt 2 (by omega), prod_axes ha F.cnt]

/-! ## Nodes -/

/-- Index of a node along axis `k`. -/
def idx (F : Fe) (n k : Nat) : Nat := if k = 0 then n % F.nx else if k = 1 then n / F.nx % F.ny else n / F.nx / F.ny

theorem coord_idx (n k : Nat) : F.coord n k = (F.idx n k : ℝ) * F.h k := rfl

/-- The node with given indices. -/
def nodeAt (F : Fe) (x : Nat → Nat) : Nat := node3 F.nx F.ny (x 0) (x 1) (x 2)

theorem idx_nodeAt (hF : F.Good) {x : Nat → Nat} (h0 : x 0 ≤ F.cnt 0) (h1 : x 1 ≤ F.cnt 1) {k : Nat} (hk : k < 3) :
    F.idx (F.nodeAt x) k = x k := by
  have := hF.nx
  have := hF.ny
  have h0' : x 0 ≤ F.nx - 1 := h0
  have h1' : x 1 ≤ F.ny - 1 := h1
  obtain ⟨e0, e1, e2⟩ := node3_decode (nx := F.nx) (ny := F.ny) (i := x 0) (j := x 1) (k := x 2) (by omega) (by omega)
  unfold idx nodeAt
  interval_cases k
  · simpa using e0
  · simpa using e1
  · simpa using e2

theorem nodeAt_idx (n : Nat) : F.nodeAt (F.idx n) = n := by
  unfold nodeAt idx node3
  simp only [if_true, one_ne_zero, if_false, OfNat.ofNat_ne_zero, OfNat.ofNat_ne_one]
  rw [Nat.mod_add_div, Nat.mod_add_div]

theorem idx_ext {n n' : Nat} (h : ∀ k, k < 3 → F.idx n k = F.idx n' k) : n = n' := by
  rw [← nodeAt_idx (F := F) n, ← nodeAt_idx (F := F) n']
  unfold nodeAt
  rw [h 0 (by omega), h 1 (by omega), h 2 (by omega)]

/-- The greatest index along axis `k`. -/
def top (F : Fe) (k : Nat) : Nat := if k = 2 ∧ F.dim = 2 then 0 else F.cnt k

theorem top_le (k : Nat) : F.top k ≤ F.cnt k := by unfold top; split <;> omega

theorem lt_nn_iff (hF : F.Good) (n : Nat) : n < F.nn ↔ ∀ k, k < 3 → F.idx n k ≤ F.top k := by
  have hx := hF.nx
  have hy := hF.ny
  have hxy : 0 < F.nx * F.ny := Nat.mul_pos (by omega) (by omega)
  have h01 : F.idx n 0 ≤ F.top 0 ∧ F.idx n 1 ≤ F.top 1 := by
    have e0 : F.top 0 = F.nx - 1 := by simp [top, cnt]
    have e1 : F.top 1 = F.ny - 1 := by simp [top, cnt]
    have i0 : F.idx n 0 < F.nx := by simp only [idx, if_true]; exact Nat.mod_lt _ (by omega)
    have i1 : F.idx n 1 < F.ny := by simp only [idx]; exact Nat.mod_lt _ (by omega)
    omega
  have e2 : F.top 2 + 1 = if F.dim = 2 then 1 else F.layers + 1 := by
    simp only [top, cnt, true_and]; split <;> simp
  have h2 : n < F.nn ↔ F.idx n 2 ≤ F.top 2 := by
    have : F.idx n 2 = n / (F.nx * F.ny) := by simp only [idx]; norm_num; rw [Nat.div_div_eq_div_mul]
    rw [this, ← Nat.lt_succ_iff, Nat.succ_eq_add_one, e2, Nat.div_lt_iff_lt_mul hxy, Nat.mul_comm]
    rfl
  rw [h2]
  constructor
  · intro h k hk
    interval_cases k
    · exact h01.1
    · exact h01.2
    · exact h
  · intro h; exact h 2 (by omega)

/-- Index of the image of a node. -/
def mapIdx (F : Fe) (a : AxisMap) (n k : Nat) : Nat :=
  if a.flip k then F.cnt (a.p k) - F.idx n (a.p k) else F.idx n (a.p k)

/-- Image of a node. -/
def mapNode (F F' : Fe) (a : AxisMap) (n : Nat) : Nat := F'.nodeAt (F.mapIdx a n)

theorem top_image (ha : a.Ok F.dim) (hi : F.Image a F') {k : Nat} (hk : k < 3) : F'.top k = F.top (a.p k) := by
  unfold top
  rw [hi.dim, hi.cnt k hk]
  by_cases hd : F.dim = 2
  · have : k = 2 ↔ a.p k = 2 := by
      have h2 := (ha.two hd).1
      constructor
      · rintro rfl; exact h2
      · intro e; exact ha.inj hk (by omega) (e.trans h2.symm)
    simp only [hd, and_true, this]
  · simp only [hd, and_false, if_false]

theorem mapIdx_le (ha : a.Ok F.dim) (hi : F.Image a F') (hF : F.Good) {n : Nat} (hn : n < F.nn) {k : Nat}
    (hk : k < 3) : F.mapIdx a n k ≤ F'.top k := by
  have h := (lt_nn_iff hF n).mp hn _ (ha.lt k hk)
  rw [top_image ha hi hk]
  unfold mapIdx
  split
  · rename_i hf
    unfold top
    split
    · rename_i hh
      have := ha.inj hk (k' := 2) (by omega) (hh.1.trans (ha.two hh.2).1.symm)
      subst this
      rw [(ha.two hh.2).2] at hf
      cases hf
    · omega
  · exact h

theorem idx_mapNode (ha : a.Ok F.dim) (hi : F.Image a F') (hF : F.Good) (hF' : F'.Good) {n : Nat}
    (hn : n < F.nn) {k : Nat} (hk : k < 3) : F'.idx (F.mapNode F' a n) k = F.mapIdx a n k :=
  idx_nodeAt hF' ((mapIdx_le ha hi hF hn (by omega)).trans (top_le _))
    ((mapIdx_le ha hi hF hn (by omega)).trans (top_le _)) hk

theorem mapNode_lt (ha : a.Ok F.dim) (hi : F.Image a F') (hF : F.Good) (hF' : F'.Good) {n : Nat}
    (hn : n < F.nn) : F.mapNode F' a n < F'.nn := by
  rw [lt_nn_iff hF']
  intro k hk
  rw [idx_mapNode ha hi hF hF' hn hk]
  exact mapIdx_le ha hi hF hn hk

theorem mapNode_inj (ha : a.Ok F.dim) (hi : F.Image a F') (hF : F.Good) (hF' : F'.Good) {n n' : Nat}
    (hn : n < F.nn) (hn' : n' < F.nn) (h : F.mapNode F' a n = F.mapNode F' a n') : n = n' := by
  refine idx_ext (F := F) fun k hk => ?_
  have h1 := idx_mapNode ha hi hF hF' hn (ha.qlt k hk)
  rw [h, idx_mapNode ha hi hF hF' hn' (ha.qlt k hk)] at h1
  unfold mapIdx at h1
  rw [ha.pq k hk] at h1
  have := (lt_nn_iff hF n).mp hn k hk
  have := (lt_nn_iff hF n').mp hn' k hk
  have := F.top_le k
  split at h1 <;> omega

theorem idx_node (hF : F.Good) {e : Nat × Nat × Nat} (he : e ∈ F.elems) {x k : Nat} (hx : x < 8) (hk : k < 3) :
    F.idx (F.node e x) k = pos e k + corner k x := by
  have h := mem_elems_pos.mp he
  have h0 := h 0 (by omega)
  have h1 := h 1 (by omega)
  have c0 := corner_le (k := 0) hx
  have c1 := corner_le (k := 1) hx
  exact idx_nodeAt (x := fun k => pos e k + corner k x) hF (by beta_reduce; omega) (by beta_reduce; omega) hk

theorem mapNode_node (ha : a.Ok F.dim) (hi : F.Image a F') (hF : F.Good) {e : Nat × Nat × Nat}
    (he : e ∈ F.elems) {x : Nat} (hx : x < 8) :
    F.mapNode F' a (F.node e x) = F'.node (F.mapElem a e) (a.corn x) := by
  have key : ∀ k, k < 3 → F.mapIdx a (F.node e x) k = pos (F.mapElem a e) k + corner k (a.corn x) := by
    intro k hk
    have h := mem_elems_pos.mp he _ (ha.lt k hk)
    have c := corner_le (k := a.p k) hx
    unfold mapIdx
    rw [idx_node hF he hx (ha.lt k hk), pos_mapElem a e hk, mapPos_eq, corner_corn ha hx hk]
    split <;> omega
  unfold mapNode nodeAt
  rw [key 0 (by omega), key 1 (by omega), key 2 (by omega)]
  rfl

/-! ## Dofs -/

/-- Image of a dof. -/
def mapDof (F F' : Fe) (a : AxisMap) (r : Nat) : Nat :=
  F.mapNode F' a (r / F.dim) * F.dim + a.q (r % F.dim)

/-- The sign of a dof. -/
def dofSign (F : Fe) (a : AxisMap) (r : Nat) : ℝ := a.sign (a.q (r % F.dim))

theorem dof_split (hF : F.Good) {r : Nat} (hr : r < F.nn * F.dim) : r / F.dim < F.nn ∧ r % F.dim < F.dim := by
  have := hF.dim2
  exact ⟨(Nat.div_lt_iff_lt_mul (by omega)).mpr hr, Nat.mod_lt _ (by omega)⟩

theorem mapDof_lt (ha : a.Ok F.dim) (hi : F.Image a F') (hF : F.Good) (hF' : F'.Good) {r : Nat}
    (hr : r < F.nn * F.dim) : F.mapDof F' a r < F'.nn * F'.dim := by
  obtain ⟨h1, h2⟩ := dof_split hF hr
  rw [hi.dim]
  exact mul_add_lt (mapNode_lt ha hi hF hF' h1) (ha.qlt_dim hF.dims h2)

theorem mapDof_div (ha : a.Ok F.dim) (hF : F.Good) {r : Nat} (hr : r < F.nn * F.dim) :
    F.mapDof F' a r / F.dim = F.mapNode F' a (r / F.dim) ∧ F.mapDof F' a r % F.dim = a.q (r % F.dim) := by
  obtain ⟨h1, h2⟩ := dof_split hF hr
  have := ha.qlt_dim hF.dims h2
  unfold mapDof
  exact ⟨mul_add_div' this, mul_add_mod' this⟩

theorem mapDof_inj (ha : a.Ok F.dim) (hi : F.Image a F') (hF : F.Good) (hF' : F'.Good) {r r' : Nat}
    (hr : r < F.nn * F.dim) (hr' : r' < F.nn * F.dim) (h : F.mapDof F' a r = F.mapDof F' a r') : r = r' := by
  obtain ⟨h1, h2⟩ := dof_split hF hr
  obtain ⟨h1', h2'⟩ := dof_split hF hr'
  obtain ⟨d1, d2⟩ := mapDof_div (F' := F') ha hF hr
  obtain ⟨d1', d2'⟩ := mapDof_div (F' := F') ha hF hr'
  have e1 := mapNode_inj ha hi hF hF' h1 h1' (by rw [← d1, ← d1', h])
  have e2 : r % F.dim = r' % F.dim := by
    have := hF.dim_le
    rw [← ha.pq (r % F.dim) (by omega), ← ha.pq (r' % F.dim) (by omega), ← d2, ← d2', h]
  rw [← Nat.div_add_mod r F.dim, ← Nat.div_add_mod r' F.dim, e1, e2]

theorem Bd_iff (hF : F.Good) {r : Nat} (hr : r < F.nn * F.dim) :
    F.Bd r ↔ ∃ k, k < F.dim ∧ (F.idx (r / F.dim) k = 0 ∨ F.idx (r / F.dim) k = F.cnt k) := by
  obtain ⟨h1, -⟩ := dof_split hF hr
  have h0 := (lt_nn_iff hF _).mp h1
  have hx := hF.nx
  have hy := hF.ny
  have ex : ∀ P : Nat → Prop, (∃ k, k < 3 ∧ P k) ↔ P 0 ∨ P 1 ∨ P 2 := by
    intro P
    constructor
    · rintro ⟨k, hk, h⟩
      interval_cases k
      · exact .inl h
      · exact .inr (.inl h)
      · exact .inr (.inr h)
    · rintro (h | h | h)
      · exact ⟨0, by omega, h⟩
      · exact ⟨1, by omega, h⟩
      · exact ⟨2, by omega, h⟩
  have ex2 : ∀ P : Nat → Prop, (∃ k, k < 2 ∧ P k) ↔ P 0 ∨ P 1 := by
    intro P
    constructor
    · rintro ⟨k, hk, h⟩
      interval_cases k
      · exact .inl h
      · exact .inr h
    · rintro (h | h)
      · exact ⟨0, by omega, h⟩
      · exact ⟨1, by omega, h⟩
  have c0 : F.cnt 0 = F.nx - 1 := rfl
  have c1 : F.cnt 1 = F.ny - 1 := rfl
  have c2 : F.cnt 2 = F.layers := rfl
  rcases hF.dims with hd | hd
  · have e : F.idx (r / F.dim) 1 = r / 2 / F.nx := by
      have h2 := h0 2 (by omega)
      unfold top at h2
      rw [if_pos ⟨rfl, hd⟩] at h2
      have h3 : F.idx (r / F.dim) 2 = r / 2 / F.nx / F.ny := by rw [hd]; rfl
      have h4 : F.idx (r / F.dim) 1 = r / 2 / F.nx % F.ny := by rw [hd]; rfl
      rw [h4]
      refine Nat.mod_eq_of_lt ?_
      have h5 : r / 2 / F.nx / F.ny = 0 := by omega
      exact (Nat.div_eq_zero_iff_lt (by omega)).mp h5
    have e0 : F.idx (r / F.dim) 0 = r / 2 % F.nx := by rw [hd]; rfl
    rw [show (∃ k, k < F.dim ∧ (F.idx (r / F.dim) k = 0 ∨ F.idx (r / F.dim) k = F.cnt k))
      ↔ ∃ k, k < 2 ∧ (F.idx (r / F.dim) k = 0 ∨ F.idx (r / F.dim) k = F.cnt k) by rw [hd], ex2, e, e0]
    unfold Bd
    rw [if_pos hd]
    unfold BdryDof2 Bdry2
    omega
  · have e0 : F.idx (r / F.dim) 0 = r / F.dim % F.nx := rfl
    have e1 : F.idx (r / F.dim) 1 = r / F.dim / F.nx % F.ny := rfl
    have e2 : F.idx (r / F.dim) 2 = r / F.dim / F.nx / F.ny := rfl
    rw [show (∃ k, k < F.dim ∧ (F.idx (r / F.dim) k = 0 ∨ F.idx (r / F.dim) k = F.cnt k))
      ↔ ∃ k, k < 3 ∧ (F.idx (r / F.dim) k = 0 ∨ F.idx (r / F.dim) k = F.cnt k) by rw [hd], ex, e0, e1, e2]
    unfold Bd
    rw [if_neg (by omega)]
    unfold BdryDof3 Bdry3
    omega

theorem Bd_mapDof (ha : a.Ok F.dim) (hi : F.Image a F') (hF : F.Good) (hF' : F'.Good) {r : Nat}
    (hr : r < F.nn * F.dim) : F.Bd r ↔ F'.Bd (F.mapDof F' a r) := by
  obtain ⟨h1, -⟩ := dof_split hF hr
  rw [Bd_iff hF hr, Bd_iff hF' (mapDof_lt ha hi hF hF' hr), hi.dim, (mapDof_div ha hF hr).1]
  have h3 := hF.dim_le
  have key : ∀ k, k < F.dim → ((F'.idx (F.mapNode F' a (r / F.dim)) k = 0 ∨
      F'.idx (F.mapNode F' a (r / F.dim)) k = F'.cnt k) ↔
      (F.idx (r / F.dim) (a.p k) = 0 ∨ F.idx (r / F.dim) (a.p k) = F.cnt (a.p k))) := by
    intro k hk
    have h4 := (lt_nn_iff hF _).mp h1 _ (ha.lt k (by omega))
    have h5 := F.top_le (a.p k)
    rw [idx_mapNode ha hi hF hF' h1 (by omega), hi.cnt k (by omega)]
    unfold mapIdx
    split <;> omega
  constructor
  · rintro ⟨k, hk, h⟩
    refine ⟨a.q k, ha.qlt_dim hF.dims hk, (key _ (ha.qlt_dim hF.dims hk)).mpr ?_⟩
    rw [ha.pq k (by omega)]
    exact h
  · rintro ⟨k, hk, h⟩
    exact ⟨a.p k, ha.lt_dim hF.dims hk, (key k hk).mp h⟩

/-! ## Gradients -/

theorem dShape_corn (ha : a.Ok F.dim) (hi : F.Image a F') (hF : F.Good) {g x j : Nat} (hg : g < 8) (hx : x < 8)
    (hj : j < F.dim) : dShape F.dim F'.h (a.corn g) (a.corn x) j = a.sign j * dShape F.dim F.h g x (a.p j) := by
  have h3 := hF.dim_le
  unfold dShape
  rw [sgn_corn ha hx (by omega), hi.h j hj]
  have hprod : ∏ k ∈ (range F.dim).erase j, (1 + sgn k (a.corn x) * (gaussPoint * sgn k (a.corn g))) / 2
      = ∏ k ∈ (range F.dim).erase (a.p j), (1 + sgn k x * (gaussPoint * sgn k g)) / 2 := by
    refine prod_nbij a.p ?_ ?_ ?_ ?_
    · intro k hk
      obtain ⟨h1, h2⟩ := mem_erase.mp hk
      have h2 := mem_range.mp h2
      exact mem_erase.mpr ⟨fun e => h1 (ha.inj (by omega) (by omega) e), mem_range.mpr (ha.lt_dim hF.dims h2)⟩
    · intro k hk k' hk' e
      have h2 := mem_range.mp (mem_erase.mp hk).2
      have h2' := mem_range.mp (mem_erase.mp hk').2
      exact ha.inj (by omega) (by omega) e
    · intro k hk
      obtain ⟨h1, h2⟩ := mem_erase.mp hk
      have h2 := mem_range.mp h2
      refine ⟨a.q k, mem_erase.mpr ⟨fun e => h1 ?_, mem_range.mpr (ha.qlt_dim hF.dims h2)⟩, ha.pq k (by omega)⟩
      rw [← e, ha.pq k (by omega)]
    · intro k hk
      have h2 := mem_range.mp (mem_erase.mp hk).2
      rw [sgn_corn ha hx (by omega), sgn_corn ha hg (by omega)]
      have := a.sign_sq k
      linear_combination (sgn (a.p k) x * gaussPoint * sgn (a.p k) g / 2) * this
  rw [hprod]
  ring

/-- The gradient of a field of the image. -/
theorem grad_image (ha : a.Ok F.dim) (hi : F.Image a F') (hF : F.Good) (hF' : F'.Good) (w : Nat → ℝ)
    {e : Nat × Nat × Nat} (he : e ∈ F.elems) {g i j : Nat} (hg : g < F.npe) (hi' : i < F.dim) (hj : j < F.dim) :
    F'.grad w (F.mapElem a e) (a.corn g) i j = a.sign i * a.sign j *
      F.grad (fun r => F.dofSign a r * w (F.mapDof F' a r)) e g (a.p i) (a.p j) := by
  have h8 := npe_le hF
  have h3 := hF.dim_le
  have hnpe : F'.npe = F.npe := by rw [hF'.npe_eq, hF.npe_eq, hi.dim]
  unfold grad
  rw [hnpe, hi.dim, mul_sum]
  symm
  refine sum_nbij a.corn ?_ ?_ ?_ ?_
  · intro x hx
    exact mem_range.mpr (corn_lt ha hF.dims hF.npe_eq (mem_range.mp hx))
  · intro x hx y hy e
    have hx := mem_range.mp hx
    have hy := mem_range.mp hy
    exact corn_inj ha (by omega) (by omega) e
  · have himg : (range F.npe).image a.corn = range F.npe := by
      refine eq_of_subset_of_card_le (image_subset_iff.mpr fun x hx => ?_) ?_
      · exact mem_range.mpr (corn_lt ha hF.dims hF.npe_eq (mem_range.mp hx))
      · rw [card_image_of_injOn fun x hx y hy e => ?_]
        have hx := mem_range.mp hx
        have hy := mem_range.mp hy
        exact corn_inj ha (by omega) (by omega) e
    intro y hy
    rw [← himg] at hy
    obtain ⟨x, hx, e⟩ := mem_image.mp (mem_coe.mp hy)
    exact ⟨x, mem_coe.mpr hx, e⟩
  · intro x hx
    have hx := mem_range.mp hx
    rw [dShape_corn ha hi hF (by omega) (by omega) hj]
    have hp := ha.lt_dim hF.dims hi'
    have e1 : F.dofSign a (F.node e x * F.dim + a.p i) = a.sign i := by
      unfold dofSign
      rw [mul_add_mod' hp, ha.qp i (by omega)]
    have e2 : F.mapDof F' a (F.node e x * F.dim + a.p i)
        = F'.node (F.mapElem a e) (a.corn x) * F.dim + i := by
      unfold mapDof
      rw [mul_add_mod' hp, mul_add_div' hp, ha.qp i (by omega), mapNode_node ha hi hF he (by omega)]
    beta_reduce
    rw [e1, e2]
    have := a.sign_sq i
    linear_combination (a.sign j * dShape F.dim F.h g x (a.p j) *
      w (F'.node (F.mapElem a e) (a.corn x) * F.dim + i)) * this

/-- The image of a grid. -/
theorem morph_image (ha : a.Ok F.dim) (hi : F.Image a F') (hF : F.Good) (hF' : F'.Good) :
    Morph F F' (F.mapElem a) a.corn (F.mapDof F' a) (F.dofSign a) (a.csign F.dim) (a.comp F.dim) := by
  have h8 := npe_le hF
  refine
    { npe := by rw [hF'.npe_eq, hF.npe_eq, hi.dim]
      nvoi := by rw [hF'.nvoi_eq, hF.nvoi_eq, hi.dim]
      em_mem := fun e he => mapElem_mem ha hi he
      em_inj := fun e he e' he' => mapElem_inj ha he he'
      card := card_image ha hi
      gm_lt := fun g hg => corn_lt ha hF.dims hF.npe_eq hg
      gm_inj := fun g g' hg hg' => corn_inj ha (by omega) (by omega)
      rm_lt := fun r hr => mapDof_lt ha hi hF hF' hr
      rm_inj := fun r r' hr hr' => mapDof_inj ha hi hF hF' hr hr'
      bd := fun r hr => Bd_mapDof ha hi hF hF' hr
      σ_ne := fun r => a.sign_ne _
      π_lt := fun v hv => comp_lt ha hF.dims hF.nvoi_eq hv
      orth := fun x y => ?_
      strain := fun w e he g hg v hv => ?_ }
  · unfold pair
    have h1 : ∀ v ∈ range F.nvoi, a.csign F.dim v * x (a.comp F.dim v) * (a.csign F.dim v * y (a.comp F.dim v))
        = x (a.comp F.dim v) * y (a.comp F.dim v) := by
      intro v _
      have := a.csign_sq (dim := F.dim) v
      linear_combination (x (a.comp F.dim v) * y (a.comp F.dim v)) * this
    rw [sum_congr rfl h1]
    have hinj : Set.InjOn (a.comp F.dim) (range F.nvoi : Finset Nat) := fun v hv v' hv' e =>
      comp_inj ha hF.dims hF.nvoi_eq (mem_range.mp hv) (mem_range.mp hv') e
    have himg : (range F.nvoi).image (a.comp F.dim) = range F.nvoi := by
      refine eq_of_subset_of_card_le (image_subset_iff.mpr fun v hv => ?_) ?_
      · exact mem_range.mpr (comp_lt ha hF.dims hF.nvoi_eq (mem_range.mp hv))
      · rw [card_image_of_injOn hinj]
    conv_rhs => rw [← himg]
    rw [sum_image hinj]
  · unfold strain
    rw [hi.dim]
    exact voigt_image ha hF.dims hF.nvoi_eq hv fun i j hi' hj => grad_image ha hi hF hF' w he hg hi' hj

/-! ## Boundary values -/

/-- Boundary values, up to a translation. -/
theorem onBd_image (ha : a.Ok F.dim) (hi : F.Image a F') (hF : F.Good) (hF' : F'.Good) {eps eps' u' : Nat → ℝ}
    (he : ∀ v, v < F.nvoi → eps' v = a.image F.dim eps v) (hu : F'.OnBd eps' u') :
    ∃ t : Nat → ℝ, F.OnBd eps fun r => F.dofSign a r * u' (F.mapDof F' a r) - t (r % F.dim) := by
  have h3 := hF.dim_le
  let o : Nat → ℝ := fun j => if a.flip j then F.cnt (a.p j) * F.h (a.p j) else 0
  refine ⟨fun i => a.sign (a.q i) * ∑ j ∈ range F.dim, F'.symGrad eps' (a.q i) j * o j, fun r hr hb => ?_⟩
  obtain ⟨h1, h2⟩ := dof_split hF hr
  have hq := ha.qlt_dim hF.dims h2
  have e1 := hu _ (mapDof_lt ha hi hF hF' hr) ((Bd_mapDof ha hi hF hF' hr).mp hb)
  unfold affine at e1 ⊢
  rw [hi.dim, (mapDof_div ha hF hr).1, (mapDof_div ha hF hr).2, zero_add] at e1
  beta_reduce
  rw [e1, zero_add]
  have hc : ∀ j, j < F.dim → F'.coord (F.mapNode F' a (r / F.dim)) j
      = a.sign j * F.coord (r / F.dim) (a.p j) + o j := by
    intro j hj
    have h4 := (lt_nn_iff hF _).mp h1 _ (ha.lt j (by omega))
    have h5 := F.top_le (a.p j)
    rw [coord_idx, coord_idx, idx_mapNode ha hi hF hF' h1 (by omega), hi.h j hj]
    simp only [o]
    unfold mapIdx sign
    split
    · rw [Nat.cast_sub (by omega)]; ring
    · ring
  unfold dofSign
  rw [← mul_sub, ← sum_sub_distrib, mul_sum]
  refine sum_nbij a.p ?_ ?_ ?_ ?_
  · intro k hk; exact mem_range.mpr (ha.lt_dim hF.dims (mem_range.mp hk))
  · intro k hk k' hk' e
    have hk := mem_range.mp hk
    have hk' := mem_range.mp hk'
    exact ha.inj (by omega) (by omega) e
  · intro k hk
    have hk := mem_range.mp (mem_coe.mp hk)
    exact ⟨a.q k, mem_coe.mpr (mem_range.mpr (ha.qlt_dim hF.dims hk)), ha.pq k (by omega)⟩
  · intro j hj
    have hj := mem_range.mp hj
    rw [hc j hj, symGrad_image ha hF.dims rfl hi.dim hF.nvoi_eq he hq hj, ha.pq _ (by omega)]
    have s1 := a.sign_sq (a.q (r % F.dim))
    have s2 := a.sign_sq j
    linear_combination (F.symGrad eps (r % F.dim) (a.p j) * F.coord (r / F.dim) (a.p j) * a.sign j * a.sign j) * s1
      + (F.symGrad eps (r % F.dim) (a.p j) * F.coord (r / F.dim) (a.p j)) * s2

/-- A translation has no strain. -/
theorem strain_trans (hF : F.Good) (u t : Nat → ℝ) {e : Nat × Nat × Nat} (he : e ∈ F.elems) (gp : Nat) {v : Nat}
    (hv : v < F.nvoi) : F.strain (fun r => u r - t (r % F.dim)) e gp v = F.strain u e gp v := by
  rw [strain_sub]
  have h := strain_affine hF (fun _ _ => 0) t he gp hv
  have h1 : F.affine (fun _ _ => 0) t = fun r => t (r % F.dim) := by
    funext r; unfold affine; simp
  rw [h1] at h
  rw [h]
  have : voigt F.dim (fun _ _ => (0 : ℝ)) v = 0 := by unfold voigt; simp
  rw [this, sub_zero]

end Verif.Spec.Fe
